import Verif.Lemmas.Submap
import Verif.Spec.Submap
import Verif.Props.Geometry

/-! # Submaps: C25 - C28 -/

set_option linter.unusedSectionVars false

namespace CostMapModel
open CostMap
variable {K : Type} [Field K] [LinearOrder K] [IsStrictOrderedRing K] [FloorRing K]

theorem covers_iff_cellU {m : CostMap K} (h : m.Geo) (q : Vec K) : m.Covers q ↔ (m.cellU q).In m.size := by
  rw [← C11_inside_iff, isInside_iff h]

/-- A block covers exactly the positions whose cell is in the block. -/
theorem block_covers {m s : CostMap K} {T sz : Idx} (h : m.Geo) (hb : BlockOf m s T sz) (q : Vec K) :
    s.Covers q ↔ (m.cellU q - T).In sz := by
  rw [covers_iff_cellU (hb.geo h), hb.cellU h, hb.size]

theorem block_inside {m s : CostMap K} {T sz : Idx} (h : m.Geo) (hb : BlockOf m s T sz) {q : Vec K} (hq : s.Covers q) :
    m.Covers q := by
  rw [block_covers h hb] at hq
  rw [covers_iff_cellU h]
  obtain ⟨a, b, c, d⟩ := hq
  obtain ⟨t1, t2, t3, t4⟩ := hb.t_in
  have := hb.fitx
  have := hb.fity
  simp only [Idx.sub_x, Idx.sub_y] at a b c d
  exact ⟨by omega, by omega, by omega, by omega⟩

/-- C25. When `getSubmap` succeeds, every position inside the submap is inside the parent and reads the same there in
every layer; the submap has the parent's layers, basic layers, frame and timestamp. -/
theorem C25_submap_reads_like_parent {m : CostMap K} (h : m.Geo) (hm : m.Coherent) {pos len : Vec K} {idx idx' : Idx}
    {s : CostMap K} (hs : m.getSubmap pos len idx = .ok (s, idx', true)) :
    s.layers = m.layers ∧ SameMeta m s ∧
    ∀ q, s.Covers q → m.Covers q ∧ ∀ l, s.atPosition l q = m.atPosition l q := by
  rcases getSubmap_spec h hm pos len idx with ⟨-, e⟩ | ⟨s', e, -, hb, -, hc, hl, hmeta, hat⟩
  · rw [e] at hs; cases hs
  · rw [e] at hs
    cases hs
    refine ⟨hl, hmeta, fun q hq => ?_⟩
    have hmq := block_inside h hb hq
    refine ⟨hmq, fun l => ?_⟩
    have hqs : s.isInside q = true := (C11_inside_iff s q).mpr hq
    have hqm : m.isInside q = true := (C11_inside_iff m q).mpr hmq
    unfold atPosition
    rw [getIndex_eq (hb.geo h) hqs, getIndex_eq h hqm]
    simp only [if_true]
    by_cases hlm : l ∈ m.layers
    · have hin := (block_covers h hb q).mp hq
      have e1 : bufferIdx (s.cellU q) s.size s.startIndex = m.cellU q - cornerCell m (reqHigh pos len) := by
        rw [hb.start, hb.cellU h]
        simp [bufferIdx]
      rw [e1, hat l hlm _ hin]
      congr 2
      ext <;> simp
    · have e1 : m.data l = none := by
        have := mt (hm.mem_iff l).mpr hlm
        simpa using this
      have e2 : s.data l = none := by
        have := mt (hc.mem_iff l).mpr (by rw [hl]; exact hlm)
        simpa using this
      rw [at_none e1, at_none e2]

/-- The corners of the request do not lie so far away that grid_map's guard margin exceeds a cell. -/
def RequestOk (m : CostMap K) (pos len : Vec K) : Prop :=
  EpsOk m ⟨pos.x + len.x / 2, pos.y + len.y / 2⟩ ∧ EpsOk m ⟨pos.x - len.x / 2, pos.y - len.y / 2⟩

theorem reqHigh_eq (pos len : Vec K) : reqHigh pos len = ⟨pos.x + len.x / 2, pos.y + len.y / 2⟩ := by
  unfold reqHigh; ext <;> simp <;> ring

theorem reqLow_eq (pos len : Vec K) : reqLow pos len = ⟨pos.x - len.x / 2, pos.y - len.y / 2⟩ := by
  unfold reqLow; ext <;> simp <;> ring

/-- Positions of the map inside the requested rectangle lie between the corner cells. -/
theorem rect_between {m : CostMap K} (h : m.Geo) {pos len : Vec K} (hok : RequestOk m pos len) {q : Vec K}
    (hq : m.Covers q) (hr : InRect pos len q) :
    (cornerCell m (reqHigh pos len)).x ≤ (m.cellU q).x ∧ (m.cellU q).x ≤ (cornerCell m (reqLow pos len)).x ∧
    (cornerCell m (reqHigh pos len)).y ≤ (m.cellU q).y ∧ (m.cellU q).y ≤ (cornerCell m (reqLow pos len)).y := by
  obtain ⟨⟨x1, x2⟩, y1, y2⟩ := hq
  obtain ⟨⟨r1, r2⟩, r3, r4⟩ := hr
  obtain ⟨⟨k1, k2⟩, k3, k4⟩ := hok
  rw [h.len_x] at x1 x2
  rw [h.len_y] at y1 y2
  rw [reqHigh_eq, reqLow_eq, cornerCell_eq h, cornerCell_eq h]
  simp only [cellU, h.len_x, h.len_y]
  exact ⟨bcell_le_cell h.res_pos h.size_x k1 x1 x2 r2, cell_le_bcell h.res_pos h.size_x k3 x1 x2 r1,
    bcell_le_cell h.res_pos h.size_y k2 y1 y2 r4, cell_le_bcell h.res_pos h.size_y k4 y1 y2 r3⟩

/-- C26. When `getSubmap` succeeds, the submap is a block of whole cells of the parent: its cell centres are cell
centres of the parent, one submap cell per parent cell, and it lies inside the parent. -/
theorem C26_submap_aligned {m : CostMap K} (h : m.Geo) (hm : m.Coherent) {pos len : Vec K} {idx idx' : Idx}
    {s : CostMap K} (hs : m.getSubmap pos len idx = .ok (s, idx', true)) :
    s.resolution = m.resolution ∧ s.Geo ∧ (∀ q, s.Covers q → m.Covers q) ∧
    ∀ i, i.In s.size → ∃ j c, j.In m.size ∧ s.getPosition i = some c ∧ m.getPosition j = some c := by
  rcases getSubmap_spec h hm pos len idx with ⟨-, e⟩ | ⟨s', e, -, hb, -, hc, hl, hmeta, hat⟩
  · rw [e] at hs; cases hs
  · rw [e] at hs
    cases hs
    refine ⟨hb.resolution, hb.geo h, fun q hq => block_inside h hb hq, ?_⟩
    intro i hi
    set T := cornerCell m (reqHigh pos len) with hT
    have hTi : (T + i).In m.size := by
      rw [hb.size] at hi
      obtain ⟨a, b, c, d⟩ := hi
      obtain ⟨t1, t2, t3, t4⟩ := hb.t_in
      have f1 := hb.fitx
      have f2 := hb.fity
      refine ⟨?_, ?_, ?_, ?_⟩ <;> simp only [Idx.add_x, Idx.add_y] <;> omega
    refine ⟨bufferIdx (T + i) m.size m.startIndex, m.center (T + i), bufferIdx_in hTi h.start, ?_, ?_⟩
    · rw [getPosition_eq hi, hb.start]
      have : unwrapIdx i s.size 0 = i := by simp [unwrapIdx]
      rw [this, hb.center]
    · rw [getPosition_eq (bufferIdx_in hTi h.start), unwrap_buffer hTi h.start]

/-- C26. The submap contains every position of the parent inside the requested rectangle, and no cell more than
needed: each of its cells contains such a position. -/
theorem C26_submap_covers_request {m : CostMap K} (h : m.Geo) (hm : m.Coherent) {pos len : Vec K} {idx idx' : Idx}
    {s : CostMap K} (hok : RequestOk m pos len) (hx : 0 ≤ len.x) (hy : 0 ≤ len.y)
    (hs : m.getSubmap pos len idx = .ok (s, idx', true)) :
    (∀ q, m.Covers q → InRect pos len q → s.Covers q) ∧
    (∀ i, i.In s.size → ∃ q, m.Covers q ∧ InRect pos len q ∧ s.getIndex q = (i, true)) := by
  rcases getSubmap_spec h hm pos len idx with ⟨-, e⟩ | ⟨s', e, -, hb, hpos, hc, hl, hmeta, hat⟩
  · rw [e] at hs; cases hs
  · rw [e] at hs
    cases hs
    constructor
    · intro q hq hr
      obtain ⟨b1, b2, b3, b4⟩ := rect_between h hok hq hr
      rw [block_covers h hb]
      refine ⟨?_, ?_, ?_, ?_⟩ <;> simp only [Idx.sub_x, Idx.sub_y, Idx.add_x, Idx.add_y, Idx.ones_x, Idx.ones_y] <;> omega
    · intro i hi
      have hcov : m.Covers pos := block_inside h hb ((C11_inside_iff s pos).mp hpos)
      rw [hb.size] at hi
      obtain ⟨i1, i2, i3, i4⟩ := hi
      obtain ⟨t1, t2, t3, t4⟩ := hb.t_in
      have f1 := hb.fitx
      have f2 := hb.fity
      obtain ⟨⟨p1, p2⟩, p3, p4⟩ := hcov
      obtain ⟨⟨k1, k2⟩, k3, k4⟩ := hok
      have hgs := hb.geo h
      have hTx := congrArg Idx.x (cornerCell_eq h (reqHigh pos len))
      have hTy := congrArg Idx.y (cornerCell_eq h (reqHigh pos len))
      have hBx := congrArg Idx.x (cornerCell_eq h (reqLow pos len))
      have hBy := congrArg Idx.y (cornerCell_eq h (reqLow pos len))
      set T := cornerCell m (reqHigh pos len) with hT
      set B := cornerCell m (reqLow pos len) with hB
      simp only [Idx.sub_x, Idx.sub_y, Idx.add_x, Idx.add_y, Idx.ones_x, Idx.ones_y] at i2 i4 f1 f2
      rw [reqHigh_eq] at hTx hTy
      rw [reqLow_eq] at hBx hBy
      simp only at hTx hTy hBx hBy
      rw [h.len_x] at p1 p2
      rw [h.len_y] at p3 p4
      have hr := h.res_pos
      have ax1 := lt_of_bcell_le (c := m.position.x) (p := pos.x + len.x / 2) (k := T.x + i.x) hr h.size_x (by omega)
        (by linarith) (by omega)
      have ax2 := le_of_le_bcell (c := m.position.x) (p := pos.x - len.x / 2) (k := T.x + i.x) hr h.size_x (by omega)
        (by linarith) k3 (by omega)
      have ay1 := lt_of_bcell_le (c := m.position.y) (p := pos.y + len.y / 2) (k := T.y + i.y) hr h.size_y (by omega)
        (by linarith) (by omega)
      have ay2 := le_of_le_bcell (c := m.position.y) (p := pos.y - len.y / 2) (k := T.y + i.y) hr h.size_y (by omega)
        (by linarith) k4 (by omega)
      push_cast at ax1 ax2 ay1 ay2
      set q : Vec K := ⟨min (pos.x + len.x / 2) (m.position.x + m.size.x * m.resolution / 2 - m.resolution * (T.x + i.x)),
        min (pos.y + len.y / 2) (m.position.y + m.size.y * m.resolution / 2 - m.resolution * (T.y + i.y))⟩ with hq
      have hcell : m.cellU q = T + i := by
        simp only [cellU, h.len_x, h.len_y]
        ext
        · simp only [Idx.add_x]
          rw [floor_div_eq_iff hr]
          push_cast
          have := min_le_right (pos.x + len.x / 2)
            (m.position.x + m.size.x * m.resolution / 2 - m.resolution * ((T.x : K) + i.x))
          have h2 : m.position.x + m.size.x * m.resolution / 2 - m.resolution * ((T.x : K) + i.x + 1) < q.x :=
            lt_min ax1 (by nlinarith)
          constructor
          · simp only [hq] at *; nlinarith
          · simp only [hq] at *; nlinarith
        · simp only [Idx.add_y]
          rw [floor_div_eq_iff hr]
          push_cast
          have := min_le_right (pos.y + len.y / 2)
            (m.position.y + m.size.y * m.resolution / 2 - m.resolution * ((T.y : K) + i.y))
          have h2 : m.position.y + m.size.y * m.resolution / 2 - m.resolution * ((T.y : K) + i.y + 1) < q.y :=
            lt_min ay1 (by nlinarith)
          constructor
          · simp only [hq] at *; nlinarith
          · simp only [hq] at *; nlinarith
      have hsub : m.cellU q - T = i := by rw [hcell]; ext <;> simp
      have hmq : m.Covers q := by
        rw [covers_iff_cellU h, hcell]
        refine ⟨?_, ?_, ?_, ?_⟩ <;> simp only [Idx.add_x, Idx.add_y] <;> omega
      have hsq : s.isInside q = true := by
        rw [C11_inside_iff, block_covers h hb, hsub]
        refine ⟨i1, ?_, i3, ?_⟩ <;> simp only [Idx.sub_x, Idx.sub_y, Idx.add_x, Idx.add_y, Idx.ones_x, Idx.ones_y] <;> omega
      refine ⟨q, hmq, ⟨⟨le_min (by linarith) ax2, min_le_left _ _⟩, le_min (by linarith) ay2, min_le_left _ _⟩, ?_⟩
      rw [getIndex_eq hgs hsq, hb.cellU h, hsub, hb.start]
      simp [bufferIdx]

/-- C26. `getSubmap` succeeds whenever the requested position is inside the map and the requested length is not
negative. -/
theorem C26_submap_succeeds {m : CostMap K} (h : m.Geo) (hm : m.Coherent) {pos len : Vec K} (idx : Idx)
    (hok : RequestOk m pos len) (hx : 0 ≤ len.x) (hy : 0 ≤ len.y) (hp : m.isInside pos = true) :
    ∃ s, m.getSubmap pos len idx = .ok (s, idx, true) := by
  rcases getSubmap_spec h hm pos len idx with ⟨e, -⟩ | ⟨s', e, -⟩
  · exfalso
    have hk := hok
    rw [RequestOk, ← reqHigh_eq, ← reqLow_eq] at hk
    have hT := cornerCell_in h hk.1
    have hB := cornerCell_in h hk.2
    have hcov : m.Covers pos := (C11_inside_iff m pos).mp hp
    have hbt := rect_between h hok hcov ⟨⟨by linarith, by linarith⟩, by linarith, by linarith⟩
    rw [submapGeometry_eq h ((isInside_iff h _).mpr hT) ((isInside_iff h _).mpr hB)] at e
    simp only at e
    rw [if_pos] at e
    · cases e
    set T := cornerCell m (reqHigh pos len) with hTd
    set B := cornerCell m (reqLow pos len) with hBd
    obtain ⟨t1, t2, t3, t4⟩ := hT
    obtain ⟨b1, b2, b3, b4⟩ := hB
    obtain ⟨c1, c2, c3, c4⟩ := hbt
    -- the geometry of the block, as a map
    let s0 : CostMap K := { m with length := subLength m (B - T + Idx.ones), position := subCenter m T (B - T + Idx.ones),
                                   size := B - T + Idx.ones, startIndex := 0 }
    have hb : BlockOf m s0 T (B - T + Idx.ones) := by
      refine ⟨?_, ?_, ⟨t1, t2, t3, t4⟩, ?_, ?_, rfl, rfl, rfl, rfl, rfl⟩ <;>
        simp only [Idx.sub_x, Idx.sub_y, Idx.add_x, Idx.add_y, Idx.ones_x, Idx.ones_y] <;> omega
    have : s0.isInside pos = true := by
      rw [C11_inside_iff, block_covers h hb]
      refine ⟨?_, ?_, ?_, ?_⟩ <;>
        simp only [Idx.sub_x, Idx.sub_y, Idx.add_x, Idx.add_y, Idx.ones_x, Idx.ones_y] <;> omega
    exact this
  · exact ⟨s', e⟩

/-- A position outside the map is never the centre of a submap: `getSubmap` reports failure. -/
theorem C26_outside_fails {m : CostMap K} (h : m.Geo) (hm : m.Coherent) {pos len : Vec K} (idx : Idx)
    (hp : m.isInside pos = false) : m.getSubmap pos len idx = .ok (CostMap.new m.layers, idx, false) := by
  rcases getSubmap_spec h hm pos len idx with ⟨-, e⟩ | ⟨s', e, -, hb, hpos, -⟩
  · exact e
  · have := block_inside h hb ((C11_inside_iff s' pos).mp hpos)
    rw [← C11_inside_iff, hp] at this
    cases this

/-! ### C27 -/

/-- C27 (partial). The index that `SubmapGeometry` reports for the request, `getRequestedIndexInSubmap`, is the index
in the submap of the cell containing the requested position. Missing: `getSubmap` itself does not hand
it out, see `C27_index_is_never_written`. -/
theorem C27_requested_index_partial {m : CostMap K} (h : m.Geo) (hm : m.Coherent) {pos len : Vec K} {idx idx' : Idx}
    {s : CostMap K} (hs : m.getSubmap pos len idx = .ok (s, idx', true)) :
    ∃ info, m.submapGeometry pos len = some info ∧ s.getIndex pos = (info.requestedIndex, true) := by
  rcases getSubmap_spec h hm pos len idx with ⟨-, e⟩ | ⟨s', e, ⟨info, hi⟩, hb, hpos, -⟩
  · rw [e] at hs; cases hs
  · rw [e] at hs
    cases hs
    refine ⟨info, hi, ?_⟩
    obtain ⟨-, -, -, -, hw, hinfo⟩ := submapGeometry_some h hi
    rw [hinfo]
    have e1 : s.getIndex pos = indexFromPosition pos s.length s.position s.resolution s.size s.startIndex := rfl
    rw [e1, hb.length, hb.position, hb.resolution, hb.size, hb.start]
    simp only [indexFromPosition, hw]

/-- C27 is false: whatever the caller's index variable held before the call, it still holds after it. -/
theorem C27_index_is_never_written {m : CostMap K} (h : m.Geo) (hm : m.Coherent) (pos len : Vec K) (idx : Idx) :
    ∃ s b, m.getSubmap pos len idx = .ok (s, idx, b) := by
  rcases getSubmap_spec h hm pos len idx with ⟨-, e⟩ | ⟨s', e, -⟩
  · exact ⟨_, _, e⟩
  · exact ⟨_, _, e⟩

/-- C27 is false, concretely: asking for the cells around `(1, -1)` of the demonstration map succeeds, the position is
in cell `(1, 1)` of the submap, and the caller gets back `(0, 0)`. -/
theorem C27_false : ∃ s, Demo.rotated.getSubmap ⟨1, -1⟩ ⟨1, 1⟩ ⟨0, 0⟩ = .ok (s, ⟨0, 0⟩, true) ∧
    s.getIndex ⟨1, -1⟩ = (⟨1, 1⟩, true) := by
  obtain ⟨s, hs⟩ := C26_submap_succeeds Demo.rotated_geo Demo.rotated_coherent (pos := ⟨1, -1⟩) (len := ⟨1, 1⟩) ⟨0, 0⟩
    ⟨by unfold EpsOk dblEpsilon; decide +kernel, by unfold EpsOk dblEpsilon; decide +kernel⟩ (by norm_num) (by norm_num)
    (by decide +kernel)
  refine ⟨s, hs, ?_⟩
  obtain ⟨info, h1, h2⟩ := C27_requested_index_partial Demo.rotated_geo Demo.rotated_coherent hs
  have h3 : (Demo.rotated.submapGeometry ⟨1, -1⟩ ⟨1, 1⟩).map (·.requestedIndex) = some ⟨1, 1⟩ := by decide +kernel
  rw [h1] at h3
  have h4 : info.requestedIndex = ⟨1, 1⟩ := Option.some.inj h3
  rw [h2, h4]

/-! ### C28 -/

/-- C28. For a block of cells that fits in the map, the buffer regions are at most four, lie inside the buffer, are
pairwise disjoint, and together hold exactly the cells of the block. -/
theorem C28_regions_partition {m : CostMap K} (h : m.Geo) {idx sub : Idx} (hi : idx.In m.size) (hx : 0 < sub.x)
    (hy : 0 < sub.y) (fx : (m.logical idx).x + sub.x ≤ m.size.x) (fy : (m.logical idx).y + sub.y ≤ m.size.y) :
    ∃ regs, bufferRegions idx sub m.size m.startIndex = some regs ∧ regs.length ≤ 4 ∧
      (∀ r ∈ regs, ∀ i, InRegion r i → i.In m.size) ∧
      (regs.Pairwise fun r s => ∀ i, ¬ (InRegion r i ∧ InRegion s i)) ∧
      (∀ i, (∃ r ∈ regs, InRegion r i) ↔ InBlock m (m.logical idx) sub i) := by
  have hu := unwrapIdx_in hi h.start
  rw [unwrapIdx_logical h hi] at hu
  have e : idx = bufferIdx (m.logical idx) m.size m.startIndex := by
    rw [← unwrapIdx_logical h hi, buffer_unwrap hi h.start]
  obtain ⟨regs, hreg, hok⟩ := bufferRegions_spec h.start hu hx hy fx fy
  rw [← e] at hreg
  have hin : ∀ r ∈ regs, ∀ i, InRegion r i → i.In m.size := by
    intro r hr i hi
    obtain ⟨a1, a2, a3, a4, a5, a6, -⟩ := hok.inside r hr
    obtain ⟨⟨c1, c2⟩, c3, c4⟩ := hi
    exact ⟨by omega, by omega, by omega, by omega⟩
  refine ⟨regs, hreg, hok.count, hin, hok.disjoint, ?_⟩
  intro i
  generalize m.logical idx = u at *
  obtain ⟨u1, u2, u3, u4⟩ := hu
  have hud : ∀ d : Idx, d.In sub → (u + d).In m.size := by
    rintro d ⟨d1, d2, d3, d4⟩
    refine ⟨?_, ?_, ?_, ?_⟩ <;> simp only [Idx.add_x, Idx.add_y] <;> omega
  have hlog : ∀ d : Idx, d.In sub → m.logical (bufferIdx (u + d) m.size m.startIndex) = u + d := by
    intro d hd
    rw [← unwrapIdx_logical h (bufferIdx_in (hud d hd) h.start), unwrap_buffer (hud d hd) h.start]
  constructor
  · rintro ⟨r, hr, hri⟩
    refine ⟨hin r hr i hri, ?_⟩
    obtain ⟨o, -, o1, o2, o3, o4, o5⟩ := hok.origin r hr
    obtain ⟨⟨c1, c2⟩, c3, c4⟩ := hri
    have hd : (o + (i - r.startIndex)).In sub := by
      refine ⟨?_, ?_, ?_, ?_⟩ <;> simp only [Idx.add_x, Idx.add_y, Idx.sub_x, Idx.sub_y] <;> omega
    have hb := o5 (o + (i - r.startIndex))
      (by simp only [Idx.add_x, Idx.sub_x]; omega) (by simp only [Idx.add_y, Idx.sub_y]; omega)
    have he : r.startIndex + (o + (i - r.startIndex) - o) = i := by
      ext <;> simp
    have hl := hlog _ hd
    rw [hb, he] at hl
    rw [hl]
    obtain ⟨d1, d2, d3, d4⟩ := hd
    refine ⟨⟨?_, ?_⟩, ?_, ?_⟩ <;> simp only [Idx.add_x, Idx.add_y] at * <;> omega
  · rintro ⟨him, ⟨c1, c2⟩, c3, c4⟩
    have hd : (m.logical i - u).In sub := by
      refine ⟨?_, ?_, ?_, ?_⟩ <;> simp only [Idx.sub_x, Idx.sub_y] <;> omega
    obtain ⟨r, hr, o, ho, ⟨q1, q2⟩, q3, q4⟩ := hok.cover _ hd
    refine ⟨r, hr, ?_⟩
    obtain ⟨o', ho', -, -, -, -, o5⟩ := hok.origin r hr
    rw [ho] at ho'
    cases ho'
    have hb := o5 _ ⟨q1, q2⟩ ⟨q3, q4⟩
    have he : u + (m.logical i - u) = m.logical i := by ext <;> simp
    rw [he, ← unwrapIdx_logical h him, buffer_unwrap him h.start, unwrapIdx_logical h him] at hb
    have hbx := congrArg Idx.x hb
    have hby := congrArg Idx.y hb
    simp only [Idx.add_x, Idx.add_y, Idx.sub_x, Idx.sub_y] at hbx hby q1 q2 q3 q4
    refine ⟨⟨?_, ?_⟩, ?_, ?_⟩ <;> omega

/-- C28. A block that does not fit in the map has no regions. -/
theorem C28_no_regions {m : CostMap K} (h : m.Geo) {idx sub : Idx} (hi : idx.In m.size)
    (hn : m.size.x < (m.logical idx).x + sub.x ∨ m.size.y < (m.logical idx).y + sub.y) :
    bufferRegions idx sub m.size m.startIndex = none := by
  unfold bufferRegions
  rw [unwrapIdx_logical h hi]
  simp only
  rw [if_pos (by omega)]

/-! ### Concrete cases -/

/-- A submap of the rotated demonstration map that is put together from four buffer regions. -/
example : RequestOk Demo.rotated ⟨1, -1⟩ ⟨1, 1⟩ ∧ Demo.rotated.isInside ⟨1, -1⟩ = true ∧
    (bufferRegions ⟨4, 3⟩ ⟨3, 3⟩ Demo.rotated.size Demo.rotated.startIndex).map List.length = some 4 :=
  ⟨⟨by unfold EpsOk dblEpsilon; decide +kernel, by unfold EpsOk dblEpsilon; decide +kernel⟩, by decide +kernel,
    by decide +kernel⟩

end CostMapModel

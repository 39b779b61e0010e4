import Verif.Spec.MachineWay
import Verif.Lemmas.NearWay
import Verif.Props.MachineLine
import Verif.Props.MachineInflation
import Verif.Props.MachineHistory

/-! # C114: checking a straight way on an inflated map, on the machine -/

set_option linter.unusedSectionVars false

namespace CostMapModel
open Inflation CostMap

section
variable {K : Type} [Field K] [LinearOrder K] [IsStrictOrderedRing K] [FloorRing K]

theorem tame_of_tame43 {rd : K → K} {m : CostMap K} (h : m.GeoRd rd) (ht : m.Tame43) : m.Tame :=
  ⟨ht.x.trans (mul_le_mul_of_nonneg_right (by norm_num) h.res_pos.le), ht.y.trans (mul_le_mul_of_nonneg_right (by norm_num) h.res_pos.le)⟩

/-- The cell computed for a position clearly inside a map that was not moved, and where the position lies in it. -/
theorem clearly_cell {rd : K → K} (hrd : DoublePrecision rd) {m : CostMap K} (h : m.GeoRd rd) (ht : m.Tame43) (hs : m.startIndex = ⟨0, 0⟩)
    {p : Vec K} (hp : m.Clearly rd p) :
    (m.getIndexRd rd p).1.In m.size ∧
    (((m.getIndexRd rd p).1.x : K) - 1 / 32 ≤ (m.corner.x - p.x) / m.resolution ∧
      (m.corner.x - p.x) / m.resolution ≤ ((m.getIndexRd rd p).1.x : K) + 1 + 1 / 32) ∧
    (((m.getIndexRd rd p).1.y : K) - 1 / 32 ≤ (m.corner.y - p.y) / m.resolution ∧
      (m.corner.y - p.y) / m.resolution ≤ ((m.getIndexRd rd p).1.y : K) + 1 + 1 / 32) := by
  have ht' := tame_of_tame43 h ht
  obtain ⟨i, c, e, hi, -⟩ := C74_containing_cell_partial hrd h ht' hp.inside hp.x hp.y
  have hin := hp.inside
  simp only [isInsideRd, withinMapRd, Bool.and_eq_true, decide_eq_true_eq] at hin
  obtain ⟨⟨⟨x0, y0⟩, x1⟩, y1⟩ := hin
  obtain ⟨-, -, i3, i4, -⟩ := (axis_x h ht').cell_near hrd x0 x1
  obtain ⟨-, -, j3, j4, -⟩ := (axis_y h ht').cell_near hrd y0 y1
  have eu : (m.getIndexRd rd p).1 = ⟨cellRd rd p.x m.length.x m.position.x m.resolution,
      cellRd rd p.y m.length.y m.position.y m.resolution⟩ := if_pos hs
  refine ⟨by rw [e]; exact hi, ?_⟩
  have tx : extent m.size.x m.position.x m.resolution / 2 ^ 53 ≤ 1 / 1024 * m.resolution := by
    rw [div_le_iff₀ (by positivity)]; linarith [ht.x]
  have ty : extent m.size.y m.position.y m.resolution / 2 ^ 53 ≤ 1 / 1024 * m.resolution := by
    rw [div_le_iff₀ (by positivity)]; linarith [ht.y]
  rw [eu]
  have hr := h.res_pos
  unfold corner
  simp only
  rw [le_div_iff₀ hr, div_le_iff₀ hr, le_div_iff₀ hr, div_le_iff₀ hr]
  refine ⟨⟨?_, ?_⟩, ?_, ?_⟩ <;> linarith

/-- C114. The cells the line iterator visits between two positions clearly inside a map that was not moved, on the machine: the cell
computed for any position within a thirty-second of a cell of the straight way is at most two steps from a visited one. -/
theorem C114_way {rd : K → K} (hrd : DoublePrecision rd) (sqrt : K → K) {m : CostMap K} (h : m.GeoRd rd) (ht : m.Tame43) (hm : m.Small)
    (hs : m.startIndex = ⟨0, 0⟩) {a b : Vec K} (ha : m.Clearly rd a) (hb : m.Clearly rd b) :
    ∃ it xs, (∀ fuel, 1 ≤ fuel → LineIter.ofPositionsI rd sqrt fuel m a b = .ok (some it)) ∧ Visits LineIter.opsI it xs ∧
      DiscreteLine (m.getIndexRd rd a).1 (m.getIndexRd rd b).1 xs ∧
      ∀ p, NearSegment (m.resolution / 32) a b p → m.Clearly rd p → ∃ i ∈ xs, manhattan (m.getIndexRd rd p).1 i ≤ 2 := by
  obtain ⟨it, xs, h1, h2, h3⟩ := C93_both_inside hrd sqrt h (tame_of_tame43 h ht) hm ha.inside hb.inside
  refine ⟨it, xs, h1, h2, h3, ?_⟩
  rintro p ⟨t, t0, t1, px, py⟩ hp
  obtain ⟨-, ⟨a1, a2⟩, a3, a4⟩ := clearly_cell hrd h ht hs ha
  obtain ⟨-, ⟨b1, b2⟩, b3, b4⟩ := clearly_cell hrd h ht hs hb
  obtain ⟨-, ⟨p1, p2⟩, p3, p4⟩ := clearly_cell hrd h ht hs hp
  have hr := h.res_pos
  have off : ∀ {q u v z : K}, |z - (u + t * (v - u))| ≤ m.resolution / 32 →
      |(q - z) / m.resolution - ((q - u) / m.resolution + t * ((q - v) / m.resolution - (q - u) / m.resolution))| ≤ 1 / 32 := by
    intro q u v z hz
    have e : (q - z) / m.resolution - ((q - u) / m.resolution + t * ((q - v) / m.resolution - (q - u) / m.resolution)) =
        -(z - (u + t * (v - u))) / m.resolution := by field_simp; ring
    rw [e, abs_div, abs_neg, abs_of_pos hr, div_le_iff₀ hr]
    linarith
  have ox := abs_le.mp (off (q := m.corner.x) px)
  have oy := abs_le.mp (off (q := m.corner.y) py)
  refine rough_near (A := ⟨(m.corner.x - a.x) / m.resolution, (m.corner.y - a.y) / m.resolution⟩)
    (B := ⟨(m.corner.x - b.x) / m.resolution, (m.corner.y - b.y) / m.resolution⟩) t0 t1 ⟨?_, ?_⟩ ⟨?_, ?_⟩ ⟨?_, ?_⟩ ⟨?_, ?_⟩ ⟨?_, ?_⟩ ⟨?_, ?_⟩ h3
  all_goals simp only; linarith [ox.1, ox.2, oy.1, oy.2]

/-- C114. The other way round: the centre of every visited cell is within 17/16 of a cell, along each axis, of a point of the way. -/
theorem C114_line_near_way {rd : K → K} (hrd : DoublePrecision rd) {m : CostMap K} (h : m.GeoRd rd) (ht : m.Tame43)
    (hs : m.startIndex = ⟨0, 0⟩) {a b : Vec K} (ha : m.Clearly rd a) (hb : m.Clearly rd b) {xs : List Idx}
    (hl : DiscreteLine (m.getIndexRd rd a).1 (m.getIndexRd rd b).1 xs) {i : Idx} (hi : i ∈ xs) :
    NearSegment (17 / 16 * m.resolution) a b (m.idealCentre i) := by
  obtain ⟨-, ⟨a1, a2⟩, a3, a4⟩ := clearly_cell hrd h ht hs ha
  obtain ⟨-, ⟨b1, b2⟩, b3, b4⟩ := clearly_cell hrd h ht hs hb
  have hr := h.res_pos
  obtain ⟨t, t0, t1, tx, ty⟩ := rough_back (A := ⟨(m.corner.x - a.x) / m.resolution, (m.corner.y - a.y) / m.resolution⟩)
    (B := ⟨(m.corner.x - b.x) / m.resolution, (m.corner.y - b.y) / m.resolution⟩) ⟨by simp only; linarith, by simp only; linarith⟩
    ⟨by simp only; linarith, by simp only; linarith⟩ ⟨by simp only; linarith, by simp only; linarith⟩
    ⟨by simp only; linarith, by simp only; linarith⟩ hl hi
  refine ⟨t, t0, t1, ?_, ?_⟩
  · have e : (m.idealCentre i).x - (a.x + t * (b.x - a.x)) = ((m.corner.x - a.x) / m.resolution +
        t * ((m.corner.x - b.x) / m.resolution - (m.corner.x - a.x) / m.resolution) - (i.x + 1 / 2)) * m.resolution := by
      unfold idealCentre corner; field_simp; ring
    rw [e, abs_mul, abs_of_pos hr]
    exact mul_le_mul_of_nonneg_right tx hr.le
  · have e : (m.idealCentre i).y - (a.y + t * (b.y - a.y)) = ((m.corner.y - a.y) / m.resolution +
        t * ((m.corner.y - b.y) / m.resolution - (m.corner.y - a.y) / m.resolution) - (i.y + 1 / 2)) * m.resolution := by
      unfold idealCentre corner; field_simp; ring
    rw [e, abs_mul, abs_of_pos hr]
    exact mul_le_mul_of_nonneg_right ty hr.le

/-- The answer of the program: whether every visited cell is below the threshold. -/
theorem wayClearI_eq {rd sqrt : K → K} {m : CostMap K} {l : String} {cost : Idx → Cost} (hat : ∀ i, i.In m.size → m.at l i = .ok (cost i))
    (thr : Cost) {a b : Vec K} {ia ib : Idx} {it : LineIter} {xs : List Idx} {fuel : Nat} (ha : ia.In m.size) (hb : ib.In m.size)
    (h : LineIter.ofPositionsI rd sqrt fuel m a b = .ok (some it)) (hv : Visits LineIter.opsI it xs) (hl : DiscreteLine ia ib xs) :
    wayClearI rd sqrt fuel m l thr a b = .ok (decide (∀ i ∈ xs, ¬ thr ≤ cost i)) := by
  obtain ⟨hlen, hin⟩ := line_within ha hb hl
  unfold wayClearI
  rw [h, Res.bind_ok]
  simp only
  rw [Act.forIter_eq _ hv _ hlen, wayCells (cost := cost) fun i hi => hat i (hin i hi)]
  simp

theorem same_machine {rd : K → K} {m m' : CostMap K} (g : SameGeometry m m') :
    (m.GeoRd rd → m'.GeoRd rd) ∧ (m.Tame43 → m'.Tame43) ∧ (m.Small → m'.Small) ∧ (∀ p, m'.isInsideRd rd p = m.isInsideRd rd p) ∧
      (∀ p, m'.getIndexRd rd p = m.getIndexRd rd p) ∧ (∀ p, m.Clearly rd p → m'.Clearly rd p) := by
  obtain ⟨g1, g2, g3, g4, g5⟩ := g
  have hins : ∀ p, m'.isInsideRd rd p = m.isInsideRd rd p := fun p => by unfold isInsideRd; rw [g1, g3]
  refine ⟨fun h => ⟨?_, ?_, ?_, ?_, ?_, ?_⟩, fun h => ⟨?_, ?_⟩, fun h => ⟨?_, ?_⟩, hins, fun p => ?_, fun p h => ⟨?_, ?_, ?_⟩⟩
  · rw [g2]; exact h.res_pos
  · rw [g4]; exact h.size_x
  · rw [g4]; exact h.size_y
  · rw [g1, g4, g2]; exact h.len_x
  · rw [g1, g4, g2]; exact h.len_y
  · rw [g4, g5]; exact h.start
  · rw [g4, g3, g2]; exact h.x
  · rw [g4, g3, g2]; exact h.y
  · rw [g4]; exact h.x
  · rw [g4]; exact h.y
  · unfold getIndexRd; rw [g1, g2, g3, g4, g5]
  · rw [hins]; exact h.inside
  · unfold tolX; rw [g1, g2, g3, g4]; exact h.x
  · unfold tolY; rw [g1, g2, g3, g4]; exact h.y

variable {w : World K} {F : Fmt K} {rf : K → K} {pop : Pop K} {hyp : Nat → Nat → K} {computer : K → Cost} {radius : K} {m : CostMap K}
  {o : Inflater K}

/-- C114. Whatever calls have made the map, if its buffer starts at zero: inflate it and check a straight way between two positions
clearly inside it on the inflated layer. The check always gives an answer. If the inflation gives at least the threshold up to `n` cells and
the answer is "clear", then every lethal cell is more than `n - 2` cells away from the cell computed for any position within a
thirty-second of a cell of the way. -/
theorem C114_clearance (hrd : DoublePrecision F.rd) (hF : IntsExact F.rd) (htop : 2 ^ 31 ≤ F.top) (hm : HeldI w F rf m)
    (hs : m.startIndex = ⟨0, 0⟩) {ls : String} (hls : m.exists ls = true) (ld : String) (h0 : 0 ≤ radius)
    (htr : |F.rd (radius / m.resolution)| < F.top) (hn : ⌈F.rd (radius / m.resolution)⌉.toNat < 2 ^ 32 - 2) (hpop : PopOk pop)
    (hh : HypOk hyp ⌈F.rd (radius / m.resolution)⌉.toNat) (ho : UsedU F rf hyp computer m.resolution o) (log : List Idx) {n : Nat}
    (hnr : (n : K) * m.resolution ≤ radius * (1 - 1 / 2 ^ 53)) {thr : Cost}
    (hthr : ∀ i q, sqDist i q ≤ n * n → thr ≤ inflationCostRd rf hyp computer m.resolution i q) (sqrt : K → K) :
    ∃ st', inflateU F rf pop hyp ls ld (.fin radius) computer ⟨o, m, log⟩ = (.ok (), st') ∧
      ∀ a b, m.Clearly F.rd a → m.Clearly F.rd b →
        ∃ r, (∀ fuel, 1 ≤ fuel → wayClearI F.rd sqrt fuel st'.map ld thr a b = .ok r) ∧
          (r = true → ∀ p, NearSegment (m.resolution / 32) a b p → m.Clearly F.rd p →
            ∀ L, m.Lethal ls L → n < manhattan (m.getIndexRd F.rd p).1 L + 2) := by
  have hw := held_inWorld hrd hF htop hm
  have hc := hw.coherent
  have hX : m.size.x < 2 ^ 31 := lt_of_le_of_lt hw.small.x (by norm_num)
  have hY : m.size.y < 2 ^ 31 := lt_of_le_of_lt hw.small.y (by norm_num)
  obtain ⟨st', h1, hgeo, -, -, -, hat⟩ := C94_reach_partial hF hrd hc hX hY hw.geo.res_pos hls ld h0 htr hn hpop hh ho log
  obtain ⟨st'', h1', hman⟩ := C94_covers_partial hF hrd hc hX hY hw.geo.res_pos hls ld h0 htr hn hpop hh ho log
  obtain rfl : st' = st'' := by rw [h1] at h1'; exact (Prod.mk.inj h1').2
  refine ⟨st', h1, fun a b ha hb => ?_⟩
  obtain ⟨s1, s2, s3, s4, s5, s6⟩ := same_machine (rd := F.rd) hgeo
  have hread : ∀ i, i.In st'.map.size → ∃ c, st'.map.at ld i = .ok c := by
    intro i hi
    rw [hgeo.size] at hi
    obtain ⟨v, hv⟩ := hc.at_ok hls hi
    rcases hat i v hi hv with h | ⟨q, -, -, h⟩
    · exact ⟨_, h⟩
    · exact ⟨_, h⟩
  classical
  obtain ⟨cost, hcost⟩ : ∃ cost : Idx → Cost, ∀ i, i.In st'.map.size → st'.map.at ld i = .ok (cost i) :=
    ⟨fun i => if hi : i.In st'.map.size then (hread i hi).choose else 0, fun i hi => by
      simp only [hi, dif_pos]; exact (hread i hi).choose_spec⟩
  have hs' : st'.map.startIndex = ⟨0, 0⟩ := hgeo.startIndex.trans hs
  obtain ⟨it, xs, w1, w2, w3, w4⟩ := C114_way hrd sqrt (s1 hw.geo) (s2 hw.tame43) (s3 hw.small) hs' (s6 a ha) (s6 b hb)
  have ina := (clearly_cell hrd (s1 hw.geo) (s2 hw.tame43) hs' (s6 a ha)).1
  have inb := (clearly_cell hrd (s1 hw.geo) (s2 hw.tame43) hs' (s6 b hb)).1
  have hin := (line_within ina inb w3).2
  refine ⟨_, fun fuel hf => wayClearI_eq hcost thr ina inb (w1 fuel hf) w2 w3, fun hr p hp hpc L hL => ?_⟩
  obtain ⟨i, hi, hd⟩ := w4 p (by rw [hgeo.resolution]; exact hp) (s6 p hpc)
  by_contra hfar
  rw [s5] at hd
  have hiL : manhattan i L ≤ n := by
    generalize (m.getIndexRd F.rd p).1 = c at hd hfar
    unfold manhattan at hd hfar ⊢
    omega
  have him : i.In m.size := by rw [← hgeo.size]; exact hin i hi
  obtain ⟨v, hv⟩ := hc.at_ok hls him
  obtain ⟨q, hq, hsq, hval⟩ := hman i v L him hv hL (by
    have : (manhattan i L : K) ≤ n := by exact_mod_cast hiL
    exact (mul_le_mul_of_nonneg_right this hw.geo.res_pos.le).trans hnr)
  have hcl : ¬ thr ≤ cost i := of_decide_eq_true hr i hi
  rw [hcost i (hin i hi)] at hval
  injection hval with hval
  apply hcl
  rw [hval]
  refine UInt8.le_trans ?_ (combined_ge _ _)
  exact hthr i q (hsq.trans (Nat.mul_le_mul hiL hiL))

/-- C114. With a radius of at least two cells a way that is found clear meets no lethal cell: reading the source layer at any position within
a thirty-second of a cell of it gives a cost other than lethal. -/
theorem C114_clear (hrd : DoublePrecision F.rd) (hF : IntsExact F.rd) (htop : 2 ^ 31 ≤ F.top) (hm : HeldI w F rf m)
    (hs : m.startIndex = ⟨0, 0⟩) {ls : String} (hls : m.exists ls = true) (ld : String) (h0 : 0 ≤ radius)
    (htr : |F.rd (radius / m.resolution)| < F.top) (hn : ⌈F.rd (radius / m.resolution)⌉.toNat < 2 ^ 32 - 2) (hpop : PopOk pop)
    (hh : HypOk hyp ⌈F.rd (radius / m.resolution)⌉.toNat) (ho : UsedU F rf hyp computer m.resolution o) (log : List Idx)
    (hnr : 2 * m.resolution ≤ radius * (1 - 1 / 2 ^ 53)) {thr : Cost}
    (hthr : ∀ i q, sqDist i q ≤ 2 * 2 → thr ≤ inflationCostRd rf hyp computer m.resolution i q) (sqrt : K → K) :
    ∃ st', inflateU F rf pop hyp ls ld (.fin radius) computer ⟨o, m, log⟩ = (.ok (), st') ∧
      ∀ a b, m.Clearly F.rd a → m.Clearly F.rd b →
        ∃ r, (∀ fuel, 1 ≤ fuel → wayClearI F.rd sqrt fuel st'.map ld thr a b = .ok r) ∧
          (r = true → ∀ p, NearSegment (m.resolution / 32) a b p → m.Clearly F.rd p →
            ∃ c, m.atPositionI F.rd ls p = .ok c ∧ c ≠ LETHAL_OBSTACLE) := by
  obtain ⟨st', h1, h⟩ := C114_clearance hrd hF htop hm hs hls ld h0 htr hn hpop hh ho log (n := 2) (by push_cast; exact hnr) hthr sqrt
  refine ⟨st', h1, fun a b ha hb => ?_⟩
  obtain ⟨r, hr, h⟩ := h a b ha hb
  refine ⟨r, hr, fun hrt p hp hpc => ?_⟩
  have hw := held_inWorld hrd hF htop hm
  have hin := (clearly_cell hrd hw.geo hw.tame43 hs hpc).1
  obtain ⟨c, hcv⟩ := hw.coherent.at_ok hls hin
  have hnear := C79_inside_near hrd hw.geo hw.tame hw.small hpc.inside
  refine ⟨c, ?_, ?_⟩
  · rw [(C79_access hrd hw.geo hw.tame hw.small hnear ls 0).1]
    unfold atPositionRd
    rw [show m.getIndexRd F.rd p = ((m.getIndexRd F.rd p).1, m.isInsideRd F.rd p) from rfl, hpc.inside]
    exact hcv
  · rintro rfl
    have := h hrt p hp hpc _ ⟨hin, hcv⟩
    unfold manhattan at this
    omega

/-- C114. The check does not cry wolf: if all cells with a centre within 17/16 of a cell of the way are below the threshold and out of reach
of every obstacle, the answer is "clear". -/
theorem C114_complete (hrd : DoublePrecision F.rd) (hF : IntsExact F.rd) (htop : 2 ^ 31 ≤ F.top) (hm : HeldI w F rf m)
    (hs : m.startIndex = ⟨0, 0⟩) {ls : String} (hls : m.exists ls = true) (ld : String) (h0 : 0 ≤ radius)
    (htr : |F.rd (radius / m.resolution)| < F.top) (hn : ⌈F.rd (radius / m.resolution)⌉.toNat < 2 ^ 32 - 2) (hpop : PopOk pop)
    (hh : HypOk hyp ⌈F.rd (radius / m.resolution)⌉.toNat) (ho : UsedU F rf hyp computer m.resolution o) (log : List Idx) (thr : Cost)
    (sqrt : K → K) :
    ∃ st', inflateU F rf pop hyp ls ld (.fin radius) computer ⟨o, m, log⟩ = (.ok (), st') ∧
      ∀ a b, m.Clearly F.rd a → m.Clearly F.rd b →
        (∀ i, i.In m.size → NearSegment (17 / 16 * m.resolution) a b (m.idealCentre i) →
          (∃ c, m.at ls i = .ok c ∧ c < thr) ∧
            ∀ L, m.Lethal ls L → (radius * (1 + 1 / 2 ^ 53) + m.resolution) ^ 2 ≤ (sqDist i L : K) * m.resolution ^ 2) →
        ∀ fuel, 1 ≤ fuel → wayClearI F.rd sqrt fuel st'.map ld thr a b = .ok true := by
  have hw := held_inWorld hrd hF htop hm
  have hc := hw.coherent
  have hX : m.size.x < 2 ^ 31 := lt_of_le_of_lt hw.small.x (by norm_num)
  have hY : m.size.y < 2 ^ 31 := lt_of_le_of_lt hw.small.y (by norm_num)
  obtain ⟨st', h1, hgeo, -, -, -, hat⟩ := C94_reach_partial hF hrd hc hX hY hw.geo.res_pos hls ld h0 htr hn hpop hh ho log
  refine ⟨st', h1, fun a b ha hb hfree => ?_⟩
  obtain ⟨s1, s2, s3, s4, s5, s6⟩ := same_machine (rd := F.rd) hgeo
  have hread : ∀ i, i.In st'.map.size → ∃ c, st'.map.at ld i = .ok c := by
    intro i hi
    rw [hgeo.size] at hi
    obtain ⟨v, hv⟩ := hc.at_ok hls hi
    rcases hat i v hi hv with h | ⟨q, -, -, h⟩
    · exact ⟨_, h⟩
    · exact ⟨_, h⟩
  classical
  obtain ⟨cost, hcost⟩ : ∃ cost : Idx → Cost, ∀ i, i.In st'.map.size → st'.map.at ld i = .ok (cost i) :=
    ⟨fun i => if hi : i.In st'.map.size then (hread i hi).choose else 0, fun i hi => by
      simp only [hi, dif_pos]; exact (hread i hi).choose_spec⟩
  have hs' : st'.map.startIndex = ⟨0, 0⟩ := hgeo.startIndex.trans hs
  obtain ⟨it, xs, w1, w2, w3, -⟩ := C114_way hrd sqrt (s1 hw.geo) (s2 hw.tame43) (s3 hw.small) hs' (s6 a ha) (s6 b hb)
  have ina := (clearly_cell hrd (s1 hw.geo) (s2 hw.tame43) hs' (s6 a ha)).1
  have inb := (clearly_cell hrd (s1 hw.geo) (s2 hw.tame43) hs' (s6 b hb)).1
  have hin := (line_within ina inb w3).2
  intro fuel hf
  rw [wayClearI_eq hcost thr ina inb (w1 fuel hf) w2 w3]
  congr 1
  refine decide_eq_true fun i hi => ?_
  have him : i.In m.size := by rw [← hgeo.size]; exact hin i hi
  rw [s5, s5] at w3
  obtain ⟨⟨c, hcv, hlt⟩, hfar⟩ := hfree i him (C114_line_near_way hrd hw.geo hw.tame43 hs ha hb w3 hi)
  rcases hat i c him hcv with h | ⟨q, hq, hqd, -⟩
  · rw [hcost i (hin i hi)] at h
    injection h with h
    rw [h]
    exact UInt8.not_le.mpr hlt
  · exact absurd hqd (not_lt.mpr (hfar q hq))

end

namespace Demo

/-- The map of 7 x 7 cells of 0.1 with a lethal cell in the middle. -/
def tenthPillar : CostMap ℚ := (MachineCall.run binary64 toFloat (.plain (.setAt "a" ⟨3, 3⟩ 254)) tenths).2

theorem tenthPillar_held : HeldI hundred binary64 toFloat tenthPillar := by
  refine .returned (.plain (.setAt "a" ⟨3, 3⟩ 254)) tenths_held (show (⟨3, 3⟩ : Idx).In tenths.size by decide +kernel) ?_
  exact Prod.ext (by decide +kernel) rfl

theorem tenthPillar_clearly (x y : ℚ) (h : tenthPillar.isInsideRd toDouble ⟨x, y⟩ = true ∧
    tenthPillar.position.x - tenthPillar.length.x / 2 + tenthPillar.tolX ≤ x ∧
    tenthPillar.position.y - tenthPillar.length.y / 2 + tenthPillar.tolY ≤ y) : tenthPillar.Clearly binary64.rd ⟨x, y⟩ :=
  ⟨h.1, h.2.1, h.2.2⟩

end Demo

open Demo in
/-- Inflated by 0.25 m: the way beside the obstacle is clear, the way past it is not, and so the source layer shows no obstacle along the
first one. -/
example : ∃ st', inflateU binary64 toFloat pop (fun i j => toFloat (hypot i j)) "a" "t" (.fin (1 / 4)) (fun _ => 253)
      ⟨Inflater.new, tenthPillar, []⟩ = (.ok (), st') ∧
    wayClearI toDouble rootDouble 1 st'.map "t" 253 ⟨2 / 5, 3 / 10⟩ ⟨2 / 5, 1 / 5⟩ = .ok true ∧
    wayClearI toDouble rootDouble 1 st'.map "t" 253 ⟨2 / 5, 0⟩ ⟨-1 / 5, 1 / 20⟩ = .ok false ∧
    ∃ c, tenthPillar.atPositionI toDouble "a" ⟨2 / 5, 1 / 4⟩ = .ok c ∧ c ≠ LETHAL_OBSTACLE := by
  have hn : ⌈binary64.rd (1 / 4 / tenthPillar.resolution)⌉.toNat = 3 := by decide +kernel
  obtain ⟨st', h1, h2⟩ := C114_clear (F := binary64) (rf := toFloat) (radius := 1 / 4) (computer := fun _ => 253) (thr := 253)
    toDouble_precision toDouble_ints top64 tenthPillar_held (by decide +kernel) (ls := "a") (by decide +kernel) "t" (by norm_num)
    (by decide +kernel) (by rw [hn]; norm_num) pop_ok (by rw [hn]; exact (C91_hypot hypot_ok _).2 (by norm_num)) .new []
    (by decide +kernel) (fun _ _ _ => UInt8.le_refl _) rootDouble
  have hst : st' = (inflateU binary64 toFloat pop (fun i j => toFloat (hypot i j)) "a" "t" (.fin (1 / 4)) (fun _ => 253)
      ⟨Inflater.new, tenthPillar, []⟩).2 := by rw [h1]
  obtain ⟨w1, w2⟩ : wayClearI toDouble rootDouble 1 st'.map "t" 253 ⟨2 / 5, 3 / 10⟩ ⟨2 / 5, 1 / 5⟩ = .ok true ∧
      wayClearI toDouble rootDouble 1 st'.map "t" 253 ⟨2 / 5, 0⟩ ⟨-1 / 5, 1 / 20⟩ = .ok false := by rw [hst]; decide +kernel
  refine ⟨st', h1, w1, w2, ?_⟩
  obtain ⟨r, hr, h⟩ := h2 ⟨2 / 5, 3 / 10⟩ ⟨2 / 5, 1 / 5⟩ (tenthPillar_clearly _ _ (by decide +kernel)) (tenthPillar_clearly _ _ (by decide +kernel))
  have e := (hr 1 le_rfl).symm.trans w1
  injection e with e
  exact h e ⟨2 / 5, 1 / 4⟩ ⟨1 / 2, by norm_num, by norm_num, by rw [abs_le]; constructor <;> decide +kernel,
    by rw [abs_le]; constructor <;> decide +kernel⟩ (tenthPillar_clearly _ _ (by decide +kernel))

open Demo in
/-- Inflated by 0.1 m: along the first row the way is out of reach of the obstacle. -/
example : ∃ st', inflateU binary64 toFloat pop (fun i j => toFloat (hypot i j)) "a" "t" (.fin (1 / 10)) (fun _ => 253)
      ⟨Inflater.new, tenthPillar, []⟩ = (.ok (), st') ∧
    ∀ fuel, 1 ≤ fuel → wayClearI toDouble rootDouble fuel st'.map "t" 253 ⟨2 / 5, 3 / 10⟩ ⟨2 / 5, 7 / 25⟩ = .ok true := by
  have hn : ⌈binary64.rd (1 / 10 / tenthPillar.resolution)⌉.toNat = 1 := by decide +kernel
  obtain ⟨st', h1, h2⟩ := C114_complete (F := binary64) (rf := toFloat) (radius := 1 / 10) (computer := fun _ => 253)
    toDouble_precision toDouble_ints top64 tenthPillar_held (by decide +kernel) (ls := "a") (by decide +kernel) "t" (by norm_num)
    (by decide +kernel) (by rw [hn]; norm_num) pop_ok (by rw [hn]; exact (C91_hypot hypot_ok _).2 (by norm_num)) .new [] 253 rootDouble
  refine ⟨st', h1, h2 _ _ (tenthPillar_clearly _ _ (by decide +kernel)) (tenthPillar_clearly _ _ (by decide +kernel)) ?_⟩
  rintro i hi ⟨t, t0, t1, hx, hy⟩
  have hsize : tenthPillar.size = ⟨7, 7⟩ := by decide +kernel
  have himem : i ∈ colMajor 7 7 := by
    rw [mem_colMajor]
    rw [hsize] at hi
    unfold Idx.In at hi
    simp only at hi
    omega
  have key : ∀ i ∈ colMajor 7 7, (tenthPillar.idealCentre i).x ≥ 2 / 5 - 17 / 16 * tenthPillar.resolution →
      (tenthPillar.idealCentre i).y ≥ 7 / 25 - 17 / 16 * tenthPillar.resolution →
      (tenthPillar.at "a" i = .ok (UInt8.ofNat (10 * i.x.toNat + i.y.toNat)) ∧ UInt8.ofNat (10 * i.x.toNat + i.y.toNat) < 253) ∧
      (1 / 10 * (1 + 1 / 2 ^ 53) + tenthPillar.resolution) ^ 2 ≤ (sqDist i ⟨3, 3⟩ : ℚ) * tenthPillar.resolution ^ 2 := by decide +kernel
  simp only at hx hy
  obtain ⟨k1, k2⟩ := key i himem (by linarith [(abs_le.mp hx).1]) (by linarith [(abs_le.mp hy).1])
  have hlethal : ∀ q ∈ colMajor 7 7, tenthPillar.at "a" q = .ok LETHAL_OBSTACLE → q = ⟨3, 3⟩ := by decide +kernel
  refine ⟨⟨_, k1⟩, fun L hL => ?_⟩
  have hq := hL.1
  rw [hsize] at hq
  rw [hlethal L (by rw [mem_colMajor]; unfold Idx.In at hq; simp only at hq; omega) hL.2]
  exact k2

end CostMapModel

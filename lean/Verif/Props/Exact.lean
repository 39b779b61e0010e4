import Verif.Props.MoveExact
import Verif.Props.Occupancy
import Verif.Props.GridMap
import Verif.Props.Bundle
import Verif.Props.Message
import Verif.Props.Iterators

/-!
# Exactly when the conversions are right (C48, C49, C51, C53, C57, C61)

The partial theorems about these properties have conditions on the map. Here the conditions are shown to be necessary: for
a map of a given shape, the property holds whatever the costs of the map are if and only if the condition holds.
-/

set_option linter.unusedSectionVars false

namespace CostMapModel
open CostMap
variable {K : Type} [Field K] [LinearOrder K] [IsStrictOrderedRing K] [FloorRing K]

theorem setStartIndex_geo {m : CostMap K} (h : m.Geo) : (m.setStartIndex 0).Geo :=
  ⟨h.res_pos, h.size_x, h.size_y, h.len_x, h.len_y, ⟨le_refl _, h.size_x, le_refl _, h.size_y⟩⟩

theorem setStartIndex_coherent {m : CostMap K} (h : m.Coherent) : (m.setStartIndex 0).Coherent :=
  ⟨h.nodup, h.mem_iff, h.dims⟩

/-- Of a map whose only occupied cell is buffer cell 0, the upper corner is free if the map was moved, and occupied if the
start index is forgotten. -/
theorem corner_witness {m : CostMap K} (h : m.Geo) (hm : m.Coherent) {l : String} (hl : m.exists l = true)
    (hs : m.startIndex ≠ 0) (v : Cost) :
    ∃ m₀, SameShape m m₀ ∧ m₀.Geo ∧ m₀.Coherent ∧ m₀.exists l = true ∧ m₀.getPosition m.startIndex = some (m.center 0) ∧
      m₀.Covers (m.center 0) ∧ m₀.at l m.startIndex = .ok 0 ∧ m₀.atPosition l (m.center 0) = .ok 0 ∧
      (m₀.setStartIndex 0).getPosition 0 = some (m.center 0) ∧ m₀.at l 0 = .ok v ∧
      (m₀.setStartIndex 0).atPosition l (m.center 0) = .ok v := by
  have hsh := singleCell_shape hm hl 0 v
  have g := hsh.geo' h
  have h0 : (0 : Idx).In m.size := ⟨le_refl _, h.size_x, le_refl _, h.size_y⟩
  have g1 : ((singleCell m l 0 v).setStartIndex 0).Geo := setStartIndex_geo g
  have hu : (m.cellU (m.center 0)) = 0 := cellU_center h 0
  have hp : (singleCell m l 0 v).Covers (m.center 0) := by
    rw [covers_iff g]; show (m.cellU (m.center 0)).In m.size; rw [hu]; exact h0
  have hp1 : ((singleCell m l 0 v).setStartIndex 0).Covers (m.center 0) := hp
  have e1 : unwrapIdx m.startIndex m.size m.startIndex = 0 := by
    rw [unwrapIdx_eq h.start h.start]; ext <;> simp [unw]
  have e2 : bufferIdx 0 m.size m.startIndex = m.startIndex := by
    rw [bufferIdx_eq h0 h.start]
    obtain ⟨a, b, c, d⟩ := h.start
    ext
    · simp [buf, b]
    · simp [buf, d]
  have e3 : unwrapIdx 0 m.size 0 = 0 := by
    rw [unwrapIdx_eq h0 h0]; ext <;> simp [unw]
  have e4 : bufferIdx 0 m.size 0 = 0 := by
    rw [bufferIdx_eq h0 h0]
    ext
    · simp [buf, h.size_x]
    · simp [buf, h.size_y]
  refine ⟨_, hsh, g, hsh.coherent hm, ?_, ?_, hp, ?_, ?_, ?_, ?_, ?_⟩
  · unfold CostMap.exists at hl ⊢; rw [hsh.isSome]; exact hl
  · rw [getPosition_eq (m := singleCell m l 0 v) (i := m.startIndex) h.start]
    show some (m.center (unwrapIdx m.startIndex m.size m.startIndex)) = _
    rw [e1]
  · rw [singleCell_at h.start, if_neg hs]
  · rw [atPosition_covered hp, getIndex_fst g ((C11_inside_iff _ _).mpr hp)]
    show (singleCell m l 0 v).at l (bufferIdx (m.cellU (m.center 0)) m.size m.startIndex) = _
    rw [hu, e2, singleCell_at h.start, if_neg hs]
  · rw [getPosition_eq (m := (singleCell m l 0 v).setStartIndex 0) (i := 0) h0]
    show some (m.center (unwrapIdx 0 m.size 0)) = _
    rw [e3]
  · rw [singleCell_at h0, if_pos rfl]
  · rw [atPosition_covered hp1, getIndex_fst g1 ((C11_inside_iff _ _).mpr hp1)]
    show (singleCell m l 0 v).at l (bufferIdx (m.cellU (m.center 0)) m.size 0) = _
    rw [hu, e4, singleCell_at h0, if_pos rfl]

/-! ## C51 -/

/-- C51, exactly: whatever the costs are, the occupancy grid shows every cell at its centre if and only if the map was not
moved. -/
theorem C51_placed_iff (rf : K → K) {m : CostMap K} (hg : m.Geo) (hc : m.Coherent) {l : String} (hl : m.exists l = true)
    (ht : m.timestamp < 2 ^ 32 * 1000000000) (hrf : |rf m.resolution - m.resolution| ≤ m.resolution / 2 ^ 24)
    (hx : m.size.x < 2 ^ 23) (hy : m.size.y < 2 ^ 23) :
    (∀ m₀, SameShape m m₀ → ∀ old, ∃ g, m₀.toOccupancyGrid rf l old = .ok g ∧ ∀ (i : Idx) (c : Vec K),
      m₀.getPosition i = some c → ∃ v, m₀.at l i = .ok v ∧ g.valueAt c = some (occupancyOf v)) ↔ m.startIndex = 0 := by
  constructor
  · intro H
    by_contra hs
    obtain ⟨m₀, hsh, g₀, c₀, l₀, p1, -, a1, -, p2, a2, -⟩ := corner_witness hg hc hl hs LETHAL_OBSTACLE
    obtain ⟨g, e, hv⟩ := H m₀ hsh []
    have ht₀ : m₀.timestamp < 2 ^ 32 * 1000000000 := by rw [hsh.info.timestamp]; exact ht
    rw [C51_start_index_is_ignored rf g₀ c₀ l₀ ht₀] at e
    obtain ⟨g', e', hv'⟩ := C51_placed_by_centre_partial rf (setStartIndex_geo g₀) (setStartIndex_coherent c₀) rfl
      (l := l) l₀ ht₀ (by show |rf m₀.resolution - m₀.resolution| ≤ m₀.resolution / 2 ^ 24
                          rw [hsh.geo.resolution]; exact hrf)
      (by show m₀.size.x < _; rw [hsh.geo.size]; exact hx) (by show m₀.size.y < _; rw [hsh.geo.size]; exact hy) []
    rw [e] at e'
    have eg : g = g' := Res.ok.inj e'
    obtain ⟨v, b1, b2⟩ := hv _ _ p1
    obtain ⟨v', b3, b4⟩ := hv' _ _ p2
    have b5 : m₀.at l 0 = .ok v' := b3
    rw [a1] at b1
    rw [a2] at b5
    rw [← Res.ok.inj b1, eg] at b2
    rw [← Res.ok.inj b5, b2] at b4
    exact absurd (Option.some.inj b4) (by decide +kernel)
  · intro hs m₀ hsh old
    have l₀ : m₀.exists l = true := by unfold CostMap.exists at hl ⊢; rw [hsh.isSome]; exact hl
    exact C51_placed_by_centre_partial rf (hsh.geo' hg) (hsh.coherent hc) (by rw [hsh.geo.startIndex]; exact hs) l₀
      (by rw [hsh.info.timestamp]; exact ht) (by rw [hsh.geo.resolution]; exact hrf) (by rw [hsh.geo.size]; exact hx)
      (by rw [hsh.geo.size]; exact hy) old

/-! ## C53 -/

/-- C53, exactly: for some strictly increasing scale `f`, whatever the costs are, the grid map shows every position of the
map scaled by `f` if and only if the map was not moved. -/
theorem C53_grid_map_iff : ∃ f : Cost → ℚ, (∀ c, |f c - 100 * (c.toNat : ℚ) / 255| ≤ 1 / 200000) ∧
    (∀ c c', c < c' → f c < f c') ∧
    ∀ (m : CostMap K), m.Geo → m.Coherent → m.layers ≠ [] → ∀ g : GridMap K, g.Empty →
      ((∀ m₀, SameShape m m₀ → ∃ g', toGridMap m₀ g = (.ok (), g') ∧ ∀ l p, m₀.exists l = true → m₀.Covers p →
          ∃ c, m₀.atPosition l p = .ok c ∧ g'.atPosition l p = .ok (some (f c))) ↔ m.startIndex = 0) := by
  obtain ⟨f, f1, -, -, f4, hf⟩ := C53_to_grid_map_partial (K := K)
  refine ⟨f, f1, f4, fun m hg hc hne g he => ⟨fun H => ?_, fun hs m₀ hsh => ?_⟩⟩
  · by_contra hs
    obtain ⟨l, hl⟩ := List.exists_mem_of_ne_nil _ hne
    have hl := (hc.mem_iff l).mp hl
    obtain ⟨m₀, hsh, g₀, c₀, l₀, -, hp, -, a1, -, -, a2⟩ := corner_witness hg hc hl hs LETHAL_OBSTACLE
    obtain ⟨g', e, hv⟩ := H m₀ hsh
    obtain ⟨g'', e', -, -, -, -, -, -, -, hv'⟩ := hf _ (setStartIndex_geo g₀) (setStartIndex_coherent c₀) rfl g he
    have ee : toGridMap (m₀.setStartIndex 0) g = toGridMap m₀ g := rfl
    rw [ee, e] at e'
    have eg : g' = g'' := (Prod.mk.inj e').2
    obtain ⟨c, b1, b2⟩ := hv l _ l₀ hp
    obtain ⟨c', b3, b4⟩ := hv' l _ l₀ hp
    rw [a1] at b1
    rw [a2] at b3
    rw [← Res.ok.inj b1, eg] at b2
    rw [← Res.ok.inj b3, b2] at b4
    have := f4 0 LETHAL_OBSTACLE (by decide)
    rw [Option.some.inj (Res.ok.inj b4)] at this
    exact lt_irrefl _ this
  · obtain ⟨g', e, -, -, -, -, -, -, -, hv⟩ := hf m₀ (hsh.geo' hg) (hsh.coherent hc)
      (by rw [hsh.geo.startIndex]; exact hs) g he
    exact ⟨g', e, hv⟩

/-! ## C57 -/

/-- C57, exactly: for a map whose other metadata survives the bundle, whatever the costs are, saving and loading keeps the
costs at every position (unknown stays unknown, known costs change by at most one) if and only if the map was not
moved. -/
theorem C57_costs_by_position_iff {cv : Cv} (hcv : cv.GrayOk) : ∃ f : Cost → Cost,
    f NO_INFORMATION = NO_INFORMATION ∧ (∀ c, c ≠ NO_INFORMATION → f c ≠ NO_INFORMATION) ∧
    (∀ c : Cost, |((f c).toNat : ℤ) - c.toNat| ≤ 1) ∧
    ∀ {rf txt : K → K}, Close24 rf → ∀ {m : CostMap K}, m.Geo → m.Coherent → m.size.x < 2 ^ 23 →
      m.size.y < 2 ^ 23 → m.layers ≠ [] → m.position.y = m.position.x → rf (txt m.resolution) = m.resolution →
      txt m.resolution = m.resolution → txt m.position.x = m.position.x →
      ((∀ m₀, SameShape m m₀ → ∀ files : Files K, ∃ files', m₀.toImageBundle txt files = .ok files' ∧
        ∀ e : CostMap K, NoLayers e → ∃ m', fromImageBundle cv rf files' e = (.ok (), m') ∧
          ∀ l p c, m₀.atPosition l p = .ok c → m'.atPosition l p = .ok (f c)) ↔ m.startIndex = 0) := by
  obtain ⟨f, f1, f2, -, -, f5, hf⟩ := C57_costs_by_position_partial (K := K) hcv
  refine ⟨f, f1, f2, f5, fun {rf txt} hrf m hg hc hx hy hne hp h1 h2 h3 => ⟨fun H => ?_, fun hs m₀ hsh files => ?_⟩⟩
  · by_contra hs
    obtain ⟨l, hl⟩ := List.exists_mem_of_ne_nil _ hne
    have hl := (hc.mem_iff l).mp hl
    obtain ⟨m₀, hsh, g₀, c₀, -, -, -, -, a1, -, -, a2⟩ := corner_witness hg hc hl hs NO_INFORMATION
    obtain ⟨files', e, hv⟩ := H m₀ hsh ⟨.missing, fun _ => none⟩
    obtain ⟨files'', e', hv'⟩ := hf hrf (setStartIndex_geo g₀) (setStartIndex_coherent c₀)
      (by show m₀.size.x < _; rw [hsh.geo.size]; exact hx) (by show m₀.size.y < _; rw [hsh.geo.size]; exact hy) rfl
      (by show m₀.position.y = m₀.position.x; rw [hsh.geo.position]; exact hp)
      (by show rf (txt m₀.resolution) = m₀.resolution; rw [hsh.geo.resolution]; exact h1)
      (by show txt m₀.resolution = m₀.resolution; rw [hsh.geo.resolution]; exact h2)
      (by show txt m₀.position.x = m₀.position.x; rw [hsh.geo.position]; exact h3) ⟨.missing, fun _ => none⟩
    have ee : (m₀.setStartIndex 0).toImageBundle txt ⟨.missing, fun _ => none⟩ =
        m₀.toImageBundle txt ⟨.missing, fun _ => none⟩ := by
      unfold CostMap.toImageBundle
      have es : ∀ ls im, (m₀.setStartIndex 0).saveLayers ls im = m₀.saveLayers ls im := by
        intro ls
        induction ls with
        | nil => intro im; rfl
        | cons a ls ih =>
          intro im
          rw [CostMap.saveLayers, CostMap.saveLayers]
          simp only [ih]
          rfl
      rw [es]; rfl
    rw [ee, e] at e'
    have ef : files' = files'' := Res.ok.inj e'
    have hnl : NoLayers (CostMap.new [] : CostMap K) := ⟨CostMap.new_coherent List.nodup_nil, rfl⟩
    obtain ⟨m', d1, d2⟩ := hv (CostMap.new []) hnl
    obtain ⟨m'', d3, -, d4⟩ := hv' (CostMap.new []) hnl
    rw [ef, d3] at d1
    have em : m'' = m' := (Prod.mk.inj d1).2
    have b1 := d2 l _ _ a1
    have b2 := d4 l _ _ a2
    rw [em, b1, f1] at b2
    exact f2 0 (by decide) (Res.ok.inj b2)
  · obtain ⟨files', e, hv⟩ := hf hrf (hsh.geo' hg) (hsh.coherent hc) (by rw [hsh.geo.size]; exact hx)
      (by rw [hsh.geo.size]; exact hy) (by rw [hsh.geo.startIndex]; exact hs) (by rw [hsh.geo.position]; exact hp)
      (by rw [hsh.geo.resolution]; exact h1) (by rw [hsh.geo.resolution]; exact h2) (by rw [hsh.geo.position]; exact h3)
      files
    refine ⟨files', e, fun e he => ?_⟩
    obtain ⟨m', d1, -, d2⟩ := hv e he
    exact ⟨m', d1, d2⟩

/-! ## C61 -/

/-- C61, exactly: `end()` is the last cell the iteration visits if and only if the map was not moved. -/
theorem C61_end_is_last_cell_iff {m : CostMap K} (h : m.startIndex.In m.size) :
    (∃ xs, Visits CostMapIter.ops (CostMapIter.new m) xs ∧ xs.getLast? = some (CostMapIter.new m).end.index) ↔
      m.startIndex = 0 := by
  have hx : 0 < m.size.x := by have := h.1; have := h.2.1; omega
  have hy : 0 < m.size.y := by have := h.2.2.1; have := h.2.2.2; omega
  constructor
  · rintro ⟨xs, hv, hl⟩
    have := hv.unique (costMapIter_visits h clamp1)
    rw [this, List.getLast?_map, rowMajor_getLast hx hy, Option.map_some,
      bufferIdx_eq (u := ⟨m.size.x - 1, m.size.y - 1⟩) ⟨by show 0 ≤ m.size.x - 1; omega, by show m.size.x - 1 < _; omega,
        by show 0 ≤ m.size.y - 1; omega, by show m.size.y - 1 < _; omega⟩ h] at hl
    have hl := Option.some.inj hl
    obtain ⟨h1, h2, h3, h4⟩ := h
    have ex := congrArg Idx.x hl
    have ey := congrArg Idx.y hl
    simp only [CostMapIter.new, CostMapIter.newWith, CostMapIter.end, bound2, clamp1, buf, Idx.add_x, Idx.sub_x, Idx.add_y,
      Idx.sub_y, Idx.ones] at ex ey
    ext
    · show m.startIndex.x = 0
      revert ex; split_ifs <;> omega
    · show m.startIndex.y = 0
      revert ey; split_ifs <;> omega
  · intro h0
    exact C61_end_is_last_cell_partial h0 hx hy

/-! ## C48, C49 -/

/-- C48, exactly: a map of fewer than 2^31 rows and columns comes back from its message unchanged if and only if its start
index fits into 16 bits and its timestamp into 32-bit seconds. -/
theorem C48_round_trip_iff {m : CostMap K} (hg : m.Geo) (hc : m.Coherent) (hx : m.size.x < 2 ^ 31) (hy : m.size.y < 2 ^ 31)
    {e : CostMap K} (he : NoLayers e) :
    (∃ msg, m.toMessage = .ok msg ∧ fromMessage msg e = (.ok true, m)) ↔
      m.startIndex.x < 2 ^ 16 ∧ m.startIndex.y < 2 ^ 16 ∧ m.timestamp < 2 ^ 32 * 10 ^ 9 := by
  constructor
  · rintro ⟨msg, h1, h2⟩
    obtain ⟨-, -, -, -, -, -, -, -, h3, -⟩ := C49_from_message_partial he.1 h2
    refine ⟨?_, ?_, ?_⟩
    · rw [h3]; show (msg.outerStartIndex.toNat : Int) < 2 ^ 16; exact_mod_cast msg.outerStartIndex.toNat_lt
    · rw [h3]; show (msg.innerStartIndex.toNat : Int) < 2 ^ 16; exact_mod_cast msg.innerStartIndex.toNat_lt
    · by_contra ht
      rw [C48_late_timestamp_throws m (not_lt.mp ht)] at h1
      cases h1
  · rintro ⟨sx, sy, ht⟩
    obtain ⟨msg, h1, h2⟩ := C48_message_round_trip_partial hg hc ht hx hy sx sy
    exact ⟨msg, h1, h2 e he⟩

/-- C49, exactly: after `fromMessage` returned true the map has just the layers of the message if and only if it had no
others before. -/
theorem C49_replaces_iff {m m' : CostMap K} {msg : CostMapMsg K} (hc : m.Coherent)
    (h : fromMessage msg m = (.ok true, m')) :
    (∀ l, l ∈ m'.layers ↔ l ∈ msg.layers) ↔ ∀ l ∈ m.layers, l ∈ msg.layers := by
  obtain ⟨hc', hl, -⟩ := C49_from_message_partial hc h
  constructor
  · intro H l hm
    exact (H l).mp ((hc'.mem_iff l).mpr ((hl l).mpr (Or.inl ((hc.mem_iff l).mp hm))))
  · intro H l
    rw [hc'.mem_iff l]
    refine (hl l).trans ⟨?_, Or.inr⟩
    rintro (h1 | h1)
    · exact H l ((hc.mem_iff l).mpr h1)
    · exact h1

/-! The hypotheses are met by sample maps on both sides of each condition. -/

example : Demo.base.Geo ∧ Demo.base.Coherent ∧ Demo.base.exists "a" = true ∧ Demo.base.startIndex = 0 ∧
    Demo.base.layers ≠ [] ∧ Demo.base.timestamp < 2 ^ 32 * 1000000000 :=
  ⟨Demo.base_geo, Demo.base_coherent, by decide +kernel, Demo.base_start, by decide +kernel, by decide +kernel⟩
example : Demo.rotated.Geo ∧ Demo.rotated.Coherent ∧ Demo.rotated.exists "a" = true ∧ Demo.rotated.startIndex ≠ 0 ∧
    Demo.rotated.layers ≠ [] ∧ Demo.rotated.timestamp < 2 ^ 32 * 1000000000 :=
  ⟨Demo.rotated_geo, Demo.rotated_coherent, by decide +kernel, by decide +kernel, by decide +kernel, by decide +kernel⟩
example : Demo.rotated11.Geo ∧ Demo.rotated11.Coherent ∧ Demo.rotated11.position.y = Demo.rotated11.position.x ∧
    Demo.rotated11.layers ≠ [] ∧ Demo.rotated11.startIndex ≠ 0 :=
  ⟨Demo.rotated11_geo, Demo.rotated11_coherent, rfl, by decide +kernel, by decide +kernel⟩

end CostMapModel

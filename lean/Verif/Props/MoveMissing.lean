import Verif.Props.Move

/-!
# C31: moving a map whose basic layers do not all exist
-/

set_option linter.unusedSectionVars false

namespace CostMapModel
open CostMap
variable {K : Type} [Field K] [LinearOrder K] [IsStrictOrderedRing K] [FloorRing K]

theorem clearBlocks_missing {i j r c : Int} (h1 : 0 ≤ i) (h2 : 0 ≤ j) (h3 : 0 ≤ r) (h4 : 0 ≤ c)
    (ls : List String) : ∀ {m : CostMap K}, m.Coherent → i + r ≤ m.size.x → j + c ≤ m.size.y →
    (∃ l ∈ ls, m.exists l = false) →
    ∃ m', Act.forEach (clearBlock i j r c) ls m = (.thrown .outOfRange, m') ∧
      Erases m m' (fun l' k => l' ∈ ls.takeWhile m.exists ∧ (i ≤ k.x ∧ k.x < i + r ∧ j ≤ k.y ∧ k.y < j + c)) := by
  induction ls with
  | nil => rintro m - - - ⟨l, h, -⟩; cases h
  | cons l ls ih =>
    intro m hc h5 h6 hl
    cases hex : m.exists l with
    | false =>
      refine ⟨m, ?_, Erases.refl m fun l' k _ h => ?_⟩
      · simp only [Act.forEach, Act.bind, clearBlock, exists_false_iff.mp hex]
      · rw [List.takeWhile_cons_of_neg (by simp [hex])] at h
        exact absurd h.1 (by simp)
    | true =>
      obtain ⟨m1, e1, er1⟩ := clearBlock_erases hc hex h1 h2 h3 h4 h5 h6
      have hsame : m1.exists = m.exists := funext er1.exists
      obtain ⟨m2, e2, er2⟩ := ih (er1.shape.coherent hc) (by rw [er1.shape.geo.size]; exact h5)
        (by rw [er1.shape.geo.size]; exact h6) (by
          obtain ⟨l', h', hn⟩ := hl
          refine ⟨l', (List.mem_cons.mp h').resolve_left ?_, by rw [hsame]; exact hn⟩
          rintro rfl; rw [hex] at hn; cases hn)
      rw [hsame] at er2
      refine ⟨m2, by simp only [Act.forEach, Act.bind, e1, e2], (er1.trans er2).congr hc ?_⟩
      intro l' k _
      rw [List.takeWhile_cons_of_pos hex, List.mem_cons]
      tauto

theorem clearStrip_missing {m : CostMap K} (hc : m.Coherent) (hs : m.startIndex.In m.size)
    (hl : ∃ l ∈ m.layersToClear, m.exists l = false) (ax : Fin 2) {idx n : Int} (h1 : 0 ≤ idx) (h2 : 0 ≤ n)
    (h3 : idx + n ≤ comp m.size ax) :
    ∃ m', clearStrip ax idx n m = (.thrown .outOfRange, m') ∧
      Erases m m' (fun l i => l ∈ m.layersToClear.takeWhile m.exists ∧ idx ≤ comp i ax ∧ comp i ax < idx + n) := by
  have hx : 0 < m.size.x := by obtain ⟨a, b, -, -⟩ := hs; omega
  have hy : 0 < m.size.y := by obtain ⟨-, -, a, b⟩ := hs; omega
  unfold clearStrip
  by_cases hax : ax = 0
  · subst hax
    simp only [comp, if_true] at h3 ⊢
    obtain ⟨m', e, er⟩ := clearBlocks_missing h1 le_rfl h2 hy.le m.layersToClear hc h3 (by omega) hl
    refine ⟨m', e, er.congr hc ?_⟩
    rintro l i ⟨i1, i2, i3, i4⟩
    constructor
    · rintro ⟨a, b⟩; exact ⟨a, by omega, by omega⟩
    · rintro ⟨a, b⟩; exact ⟨a, by omega, by omega, by omega, by omega⟩
  · simp only [comp, if_neg hax] at h3 ⊢
    obtain ⟨m', e, er⟩ := clearBlocks_missing le_rfl h1 hx.le h2 m.layersToClear hc (by omega) h3 hl
    refine ⟨m', e, er.congr hc ?_⟩
    rintro l i ⟨i1, i2, i3, i4⟩
    constructor
    · rintro ⟨a, b⟩; exact ⟨a, by omega, by omega⟩
    · rintro ⟨a, b⟩; exact ⟨a, by omega, by omega, by omega, by omega⟩

theorem dropAxis_missing {m : CostMap K} (hc : m.Coherent) (hs : m.startIndex.In m.size) (shift : Idx) (ax : Fin 2)
    (hl : ∃ l ∈ m.layersToClear, m.exists l = false) (h0 : comp shift ax ≠ 0) (hlt : |comp shift ax| < comp m.size ax) :
    ∃ (m' : CostMap K) (P : Idx → Prop), dropAxis clamp1 shift ax m = (.thrown .outOfRange, m') ∧
      Erases m m' (fun l i => l ∈ m.layersToClear.takeWhile m.exists ∧ P i) := by
  have hsz : 0 < comp m.size ax := by have := comp_in hs ax; omega
  unfold dropAxis
  extract_lets sh sz sign start stop n idx f1 f2
  have hir := clamp1_ranges (if sign > 0 then start else stop) sz hsz
  change 0 ≤ idx ∧ idx < sz at hir
  have hn0 : 0 ≤ n := abs_nonneg sh
  have hf1 : f1 = sz - idx := rfl
  have hsh : sh ≠ 0 := h0
  have hge : ¬ |sh| ≥ sz := not_le.mpr hlt
  rw [if_pos hsh, if_neg hge]
  split
  · rename_i hone
    obtain ⟨m', e, er⟩ := clearStrip_missing hc hs hl ax hir.1 hn0 hone
    exact ⟨m', fun i => idx ≤ comp i ax ∧ comp i ax < idx + n, by simp only [Act.bind, e], er⟩
  · obtain ⟨m', e, er⟩ := clearStrip_missing hc hs hl ax hir.1 (n := f1) (by omega) (by omega)
    exact ⟨m', fun i => idx ≤ comp i ax ∧ comp i ax < idx + f1, by simp only [Act.bind, e], er⟩

theorem dropAxis_far {m : CostMap K} (hs : m.startIndex.In m.size) {shift : Idx} {ax : Fin 2}
    (h : comp m.size ax ≤ |comp shift ax|) :
    dropAxis clamp1 shift ax m = (.ok [⟨0, m.size, .undefined⟩], m.clearAll) := by
  have hsz : 0 < comp m.size ax := by have := comp_in hs ax; omega
  unfold dropAxis
  simp only
  rw [if_pos (by intro h0; rw [h0, abs_zero] at h; omega), if_pos h]

theorem dropAxis_zero (m : CostMap K) {shift : Idx} {ax : Fin 2} (h : comp shift ax = 0) :
    dropAxis clamp1 shift ax m = (.ok [], m) := by
  unfold dropAxis
  simp [h]

/-- C31, when a basic layer does not exist. `move` throws exactly when, along x or along y, it shifts by at least one cell and
less than the map. Then the geometry, the centre, the layers and the metadata stay; cells may have been cleared, all of
them if the shift along x is a whole map or more, otherwise only cells of the basic layers listed before the first missing one. If `move` does not throw, it moves
the centre as in `C31_move_translates`, and a shift clears every cell. -/
theorem C31_missing_basic_layer {m : CostMap K} (h : m.Geo) (hm : m.Coherent)
    (hb : ∃ l ∈ m.basicLayers, m.exists l = false) (p : Vec K) (s : Idx) (hs : s = indexShift (p - m.position) m.resolution) :
    ((0 < |s.x| ∧ |s.x| < m.size.x) ∨ (0 < |s.y| ∧ |s.y| < m.size.y) →
      ∃ m', move p m = (.thrown .outOfRange, m') ∧ SameGeometry m m' ∧ SameMeta m m' ∧ m'.layers = m.layers ∧
        (m.size.x ≤ |s.x| → ∀ l i, m.exists l = true → i.In m.size → m'.at l i = .ok NO_INFORMATION) ∧
        (|s.x| < m.size.x → ∀ l i, m'.at l i ≠ m.at l i →
          l ∈ m.basicLayers.takeWhile m.exists ∧ m'.at l i = .ok NO_INFORMATION)) ∧
    (¬ ((0 < |s.x| ∧ |s.x| < m.size.x) ∨ (0 < |s.y| ∧ |s.y| < m.size.y)) →
      ∃ m' regs, move p m = (.ok (decide (s ≠ 0), regs), m') ∧
        m'.position = ⟨m.position.x - m.resolution * s.x, m.position.y - m.resolution * s.y⟩ ∧
        m'.size = m.size ∧ m'.length = m.length ∧ m'.resolution = m.resolution ∧ m'.layers = m.layers ∧ SameMeta m m' ∧
        ∀ l i, m.exists l = true → i.In m.size → m'.at l i = if s = 0 then m.at l i else .ok NO_INFORMATION) := by
  have hlc : m.layersToClear = m.basicLayers := by
    obtain ⟨l, hl, -⟩ := hb
    unfold layersToClear
    rw [if_pos (List.length_pos_of_mem hl)]
  have hb' : ∃ l ∈ m.layersToClear, m.exists l = false := by rw [hlc]; exact hb
  -- a change made by an erasure
  have changed : ∀ {m' : CostMap K} {S : String → Idx → Prop}, Erases m m' S → ∀ l i, m'.at l i ≠ m.at l i →
      S l i ∧ m'.at l i = .ok NO_INFORMATION := by
    intro m' S er l i hne
    have hS : S l i := by by_contra hn; exact hne (er.kept l i hn)
    have hi : i.In m.size := by by_contra hn; exact hne (er.at_out hm l hn)
    have hex : m.exists l = true := by
      by_contra hn
      rw [Bool.not_eq_true] at hn
      apply hne
      rw [at_none (exists_false_iff.mp hn), at_none (exists_false_iff.mp (by rw [er.exists]; exact hn))]
    exact ⟨hS, er.erased l i hS hex hi⟩
  have hclr := clearAll_erases hm
  have hcc := hclr.shape.coherent hm
  have hcs := hclr.shape.start h.start
  have hcg := hclr.shape.geo
  have hsame : m.clearAll.exists = m.exists := funext hclr.exists
  have hclc := layersToClear_congr hclr.shape
  have run : move p m = Act.bind (dropAxis clamp1 s 0) (fun r0 =>
      Act.bind (dropAxis clamp1 s 1) (fun r1 => fun m' =>
        (.ok (decide (s ≠ 0), r0 ++ r1),
          { m' with startIndex := bound2 clamp1 (m'.startIndex + s) m'.size
                    position := m'.position + positionShift s m.resolution }))) m := by
    rw [hs]; rfl
  rw [run]
  constructor
  · intro hcase
    by_cases hx0 : s.x = 0
    · -- only y
      have hy : 0 < |s.y| ∧ |s.y| < m.size.y := by
        rcases hcase with ⟨h1, -⟩ | h1
        · rw [hx0, abs_zero] at h1; omega
        · exact h1
      obtain ⟨m', P, e, er⟩ := dropAxis_missing hm h.start s 1 hb' (abs_pos.mp hy.1) hy.2
      refine ⟨m', ?_, er.shape.geo, er.shape.info, er.shape.layers, fun hge => ?_, fun _ l i hne => ?_⟩
      · simp only [Act.bind, dropAxis_zero m (shift := s) (ax := 0) hx0, e]
      · rw [hx0, abs_zero] at hge; exact absurd hge (not_le.mpr h.size_x)
      · obtain ⟨⟨h1, -⟩, h2⟩ := changed er l i hne
        rw [hlc] at h1; exact ⟨h1, h2⟩
    · by_cases hxl : |s.x| < m.size.x
      · obtain ⟨m', P, e, er⟩ := dropAxis_missing hm h.start s 0 hb' hx0 hxl
        refine ⟨m', ?_, er.shape.geo, er.shape.info, er.shape.layers, fun hge => absurd hge (not_le.mpr hxl),
          fun _ l i hne => ?_⟩
        · simp only [Act.bind, e]
        · obtain ⟨⟨h1, -⟩, h2⟩ := changed er l i hne
          rw [hlc] at h1; exact ⟨h1, h2⟩
      · have hy : 0 < |s.y| ∧ |s.y| < m.size.y := by
          rcases hcase with ⟨-, h1⟩ | h1
          · exact absurd h1 hxl
          · exact h1
        obtain ⟨m', P, e, er⟩ := dropAxis_missing hcc hcs s 1 (by rw [hclc, hsame]; exact hb') (abs_pos.mp hy.1)
          (by rw [hcg.size]; exact hy.2)
        have er' := hclr.trans er
        refine ⟨m', ?_, er'.shape.geo, er'.shape.info, er'.shape.layers, fun _ l i hex hi => ?_, fun hlt => absurd hlt hxl⟩
        · simp only [Act.bind, dropAxis_far h.start (shift := s) (ax := 0) (not_lt.mp hxl), e]
        · exact er'.erased l i (.inl trivial) hex hi
  · intro hcase
    push Not at hcase
    obtain ⟨hx, hy⟩ := hcase
    have pos : ∀ q : Vec K, q + positionShift s m.resolution = ⟨q.x - m.resolution * s.x, q.y - m.resolution * s.y⟩ := by
      intro q
      ext
      · show q.x + ((-s.x : Int) : K) * m.resolution = _
        push_cast; ring
      · show q.y + ((-s.y : Int) : K) * m.resolution = _
        push_cast; ring
    have hcc2 := clearAll_erases hcc
    have hcl2 := hclr.trans hcc2
    -- what is left to show once both axes are done
    have done : ∀ {m1 m2 : CostMap K} {r0 r1 : List BufferRegion}, dropAxis clamp1 s 0 m = (.ok r0, m1) →
        dropAxis clamp1 s 1 m1 = (.ok r1, m2) → SameShape m m2 →
        (∀ l i, m.exists l = true → i.In m.size → m2.at l i = if s = 0 then m.at l i else .ok NO_INFORMATION) →
        ∃ m' regs, Act.bind (dropAxis clamp1 s 0) (fun r0 =>
          Act.bind (dropAxis clamp1 s 1) (fun r1 => fun m' =>
            (.ok (decide (s ≠ 0), r0 ++ r1),
              { m' with startIndex := bound2 clamp1 (m'.startIndex + s) m'.size
                        position := m'.position + positionShift s m.resolution }))) m =
            (.ok (decide (s ≠ 0), regs), m') ∧
          m'.position = ⟨m.position.x - m.resolution * s.x, m.position.y - m.resolution * s.y⟩ ∧
          m'.size = m.size ∧ m'.length = m.length ∧ m'.resolution = m.resolution ∧ m'.layers = m.layers ∧ SameMeta m m' ∧
          ∀ l i, m.exists l = true → i.In m.size → m'.at l i = if s = 0 then m.at l i else .ok NO_INFORMATION := by
      intro m1 m2 r0 r1 e0 e1 hsh hat
      refine ⟨{ m2 with startIndex := bound2 clamp1 (m2.startIndex + s) m2.size
                        position := m2.position + positionShift s m.resolution }, r0 ++ r1, ?_, ?_, hsh.geo.size, hsh.geo.length,
        hsh.geo.resolution, hsh.layers, ⟨hsh.info.frameId, hsh.info.timestamp, hsh.info.basicLayers⟩, fun l i hex hi => hat l i hex hi⟩
      · simp only [Act.bind, e0, e1]
      · rw [← hsh.geo.position]; exact pos m2.position
    by_cases hx0 : s.x = 0
    · by_cases hy0 : s.y = 0
      · refine done (dropAxis_zero m (ax := 0) hx0) (dropAxis_zero m (ax := 1) hy0) (SameShape.refl m) fun l i _ _ => ?_
        rw [if_pos (Idx.ext hx0 hy0)]
      · refine done (dropAxis_zero m (ax := 0) hx0) (dropAxis_far h.start (ax := 1) (hy (abs_pos.mpr hy0))) hclr.shape
          fun l i hex hi => ?_
        rw [if_neg (by rintro rfl; exact hy0 rfl)]; exact hclr.erased l i trivial hex hi
    · have hsn : s ≠ 0 := by rintro rfl; exact hx0 rfl
      have hfar := dropAxis_far h.start (ax := 0) (shift := s) (hx (abs_pos.mpr hx0))
      by_cases hy0 : s.y = 0
      · refine done hfar (dropAxis_zero _ (ax := 1) hy0) hclr.shape fun l i hex hi => ?_
        rw [if_neg hsn]; exact hclr.erased l i trivial hex hi
      · refine done hfar (dropAxis_far hcs (ax := 1) (by rw [hcg.size]; exact hy (abs_pos.mpr hy0))) hcl2.shape
          fun l i hex hi => ?_
        rw [if_neg hsn]; exact hcl2.erased l i (.inl trivial) hex hi

/-- Demo.base with a basic layer that it lacks. -/
theorem Demo.base_missing_basic : ∃ l ∈ (Demo.base.setBasicLayers ["a", "c"]).basicLayers,
    (Demo.base.setBasicLayers ["a", "c"]).exists l = false := ⟨"c", by decide +kernel, by decide +kernel⟩

-- the hypotheses hold in each case: a small move throws, a far one does not
example : ∃ m', move ⟨1 / 2, -1⟩ (Demo.base.setBasicLayers ["a", "c"]) = (.thrown .outOfRange, m') ∧
    ∀ l i, m'.at l i ≠ (Demo.base.setBasicLayers ["a", "c"]).at l i → l = "a" := by
  have hg : (Demo.base.setBasicLayers ["a", "c"]).Geo := by
    exact ⟨Demo.base_geo.res_pos, Demo.base_geo.size_x, Demo.base_geo.size_y, Demo.base_geo.len_x, Demo.base_geo.len_y, Demo.base_geo.start⟩
  have hc : (Demo.base.setBasicLayers ["a", "c"]).Coherent :=
    ⟨Demo.base_coherent.nodup, Demo.base_coherent.mem_iff, Demo.base_coherent.dims⟩
  obtain ⟨m', e, -, -, -, -, h⟩ := (C31_missing_basic_layer hg hc Demo.base_missing_basic ⟨1 / 2, -1⟩ _ rfl).1
    (by decide +kernel)
  refine ⟨m', e, fun l i hne => ?_⟩
  have := (h (by decide +kernel) l i hne).1
  rw [show (Demo.base.setBasicLayers ["a", "c"]).basicLayers.takeWhile (Demo.base.setBasicLayers ["a", "c"]).exists = ["a"] by decide +kernel] at this
  simpa using this

example : ¬ (let s := indexShift ((⟨100, 100⟩ : Vec ℚ) - Demo.base.position) Demo.base.resolution
    (0 < |s.x| ∧ |s.x| < Demo.base.size.x) ∨ (0 < |s.y| ∧ |s.y| < Demo.base.size.y)) := by decide +kernel

end CostMapModel

import Verif.Lemmas.History

/-!
# C01, C71: every history of a map
-/

set_option linter.unusedSectionVars false

namespace CostMapModel
open CostMap
variable {K : Type} [Field K] [LinearOrder K] [IsStrictOrderedRing K] [FloorRing K]

/-! ## C01 -/

/-- C01, when the constructor's names are distinct: whatever calls, with whatever arguments, a map comes out of, the names
`getLayers` returns are distinct, they are the names `exists` is true of, and every layer has the size of the map. -/
theorem C01_registry {m : CostMap K} (h : Held List.Nodup (fun _ _ => True) m) :
    m.layers.Nodup ∧ (∀ l, l ∈ m.layers ↔ m.exists l = true) ∧
    ∀ l ∈ m.layers, ∃ a, m.get l = .ok a ∧ (a.rows : Int) = m.size.x ∧ (a.cols : Int) = m.size.y := by
  have hc := held_coherent (fun _ h => h) h
  refine ⟨hc.nodup, hc.mem_iff, fun l hl => ?_⟩
  obtain ⟨a, ha⟩ := Option.isSome_iff_exists.1 ((hc.mem_iff l).1 hl)
  exact ⟨a, by simp only [CostMap.get, ha], hc.dims l a ha⟩

/-- D16: with a name given twice to the constructor it is still listed after it was erased. -/
theorem C01_duplicates : ∃ m : CostMap K, Held (fun _ => True) (fun _ _ => True) m ∧
    m.layers = ["a"] ∧ m.exists "a" = false := by
  refine ⟨_, .returned (.erase "a") (.new (ls := ["a", "a"]) trivial) trivial (m' := (Call.run (.erase "a") (CostMap.new ["a", "a"])).2) ?_, ?_, ?_⟩
  · rfl
  · rfl
  · rfl

/-! ## C71 -/

/-- C71: a map that has been given a geometry (its resolution is not 0) has a usable one, after every history of calls that ask for no
unusable one: at least one cell, the length is that many cells, and the start index is a cell. -/
theorem C71_geometry {m : CostMap K} (h : Held List.Nodup Call.Usable m) (hr : m.resolution ≠ 0) :
    0 < m.resolution ∧ 0 < m.size.x ∧ 0 < m.size.y ∧
    m.length.x = (m.size.x : K) * m.resolution ∧ m.length.y = (m.size.y : K) * m.resolution ∧
    0 ≤ m.startIndex.x ∧ m.startIndex.x < m.size.x ∧ 0 ≤ m.startIndex.y ∧ m.startIndex.y < m.size.y := by
  rcases held_geo (fun _ h => h) h with hg | hg
  · exact ⟨hg.res_pos, hg.size_x, hg.size_y, hg.len_x, hg.len_y, hg.start.1, hg.start.2.1, hg.start.2.2.1, hg.start.2.2.2⟩
  · exact absurd hg.2 hr

/-- A map that has been given no geometry has no cells, and its layers are empty. -/
theorem C71_no_geometry {m : CostMap K} (h : Held List.Nodup Call.Usable m) (hr : m.resolution = 0) :
    m.size = 0 ∧ ∀ l ∈ m.layers, ∃ a, m.get l = .ok a ∧ a.rows = 0 ∧ a.cols = 0 := by
  rcases held_geo (fun _ h => h) h with hg | hg
  · exact absurd hr hg.res_pos.ne'
  · have hc := held_coherent (fun _ h => h) h
    refine ⟨hg.1, fun l hl => ?_⟩
    obtain ⟨a, ha⟩ := Option.isSome_iff_exists.1 ((hc.mem_iff l).1 hl)
    have := hc.dims l a ha
    rw [hg.1] at this
    exact ⟨a, by simp only [CostMap.get, ha], Int.ofNat_eq_zero.1 this.1, Int.ofNat_eq_zero.1 this.2⟩

/-- Only a usable geometry is usable: a length below half a cell leaves a map with a resolution and no cells. -/
theorem C71_hypothesis_needed : ∃ m : CostMap ℚ, Held List.Nodup (fun _ _ => True) m ∧ m.resolution ≠ 0 ∧ m.size = 0 := by
  have h0 : Held (K := ℚ) List.Nodup (fun _ _ => True) (CostMap.new []) := .new List.nodup_nil
  refine ⟨_, h0.step (.setGeometry ⟨1 / 10, 1 / 10⟩ (1 / 2) ⟨0, 0⟩) trivial ?_, ?_, ?_⟩
  · decide +kernel
  · decide +kernel
  · decide +kernel

/-- A history that meets the hypotheses: a 4 x 6 map gets and loses layers and is moved. -/
example : ∃ m : CostMap ℚ, Held List.Nodup Call.Usable m ∧ m.layers = ["b", "c"] ∧ m.size = ⟨4, 6⟩ ∧
    m.startIndex = ⟨3, 0⟩ ∧ m.at "b" ⟨0, 0⟩ = .ok 9 := by
  have h0 : Held (K := ℚ) List.Nodup Call.Usable (CostMap.new ["a", "b"]) := .new (by decide)
  have h1 := h0.step (.setGeometry ⟨2, 3⟩ (1 / 2) ⟨0, 0⟩) (by show HalfCell _ _; constructor <;> norm_num) (by decide +kernel)
  have h2 := h1.step (.add "c" (Mat.const 4 6 7)) trivial (by decide +kernel)
  have h3 := h2.step (.move ⟨1 / 2, 0⟩) trivial (by decide +kernel)
  have h4 := h3.step (.erase "a") trivial (by decide +kernel)
  have h5 := h4.step (.setAt "b" ⟨0, 0⟩ 9) trivial (by decide +kernel)
  have h6 := h5.step (.setStartIndex ⟨3, 0⟩) (by show Idx.In _ _; decide +kernel) (by decide +kernel)
  refine ⟨_, h6, ?_, ?_, ?_, ?_⟩ <;> decide +kernel

end CostMapModel

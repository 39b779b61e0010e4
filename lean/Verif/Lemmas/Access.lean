import Verif.Lemmas.Store
import Verif.Lemmas.Geometry

/-! # Reading and writing cells -/

set_option linter.unusedSectionVars false

namespace CostMapModel
namespace CostMap
variable {K : Type} [Field K] [LinearOrder K] [IsStrictOrderedRing K] [FloorRing K]

theorem exists_iff {m : CostMap K} {l : String} : m.exists l = true ↔ ∃ a, m.data l = some a :=
  Option.isSome_iff_exists

theorem exists_false_iff {m : CostMap K} {l : String} : m.exists l = false ↔ m.data l = none := by
  simp [CostMap.exists]

theorem Coherent.inRange {m : CostMap K} (hc : m.Coherent) {l : String} {a : Mat Cost}
    (ha : m.data l = some a) (i : Idx) : a.InRange i.x i.y ↔ i.In m.size := by
  obtain ⟨h1, h2⟩ := hc.dims l a ha
  unfold Mat.InRange Idx.In
  rw [h1, h2]

theorem at_eq {m : CostMap K} {l : String} {a : Mat Cost} (ha : m.data l = some a) (i : Idx) :
    m.at l i = .ofOption (a.get? i.x i.y) := by simp [CostMap.at, ha]

theorem at_none {m : CostMap K} {l : String} (ha : m.data l = none) (i : Idx) :
    m.at l i = .thrown .outOfRange := by simp [CostMap.at, ha]

/-- In a coherent map every cell of every existing layer can be read. -/
theorem Coherent.at_ok {m : CostMap K} (hc : m.Coherent) {l : String} (hl : m.exists l = true)
    {i : Idx} (hi : i.In m.size) : ∃ c, m.at l i = .ok c := by
  obtain ⟨a, ha⟩ := exists_iff.mp hl
  obtain ⟨c, h⟩ := a.exists_get? ((hc.inRange ha i).mpr hi)
  exact ⟨c, by rw [at_eq ha, h]; rfl⟩

theorem Coherent.at_ub {m : CostMap K} (hc : m.Coherent) {l : String} (hl : m.exists l = true)
    {i : Idx} (hi : ¬ i.In m.size) : m.at l i = .ub := by
  obtain ⟨a, ha⟩ := exists_iff.mp hl
  rw [at_eq ha, (a.get?_eq_none_iff i.x i.y).mpr (fun h => hi ((hc.inRange ha i).mp h))]; rfl

theorem at_setData (m : CostMap K) (l : String) (a : Mat Cost) (l' : String) (i : Idx) :
    (m.setData l a).at l' i = if l' = l then .ofOption (a.get? i.x i.y) else m.at l' i := by
  by_cases h : l' = l <;> simp [CostMap.at, setData, h]

theorem get_setData (m : CostMap K) (l : String) (a : Mat Cost) (l' : String) :
    (m.setData l a).get l' = if l' = l then .ok a else m.get l' := by
  by_cases h : l' = l <;> simp [CostMap.get, setData, h]

theorem get_congr {m m' : CostMap K} {l : String} (h : m'.data l = m.data l) : m'.get l = m.get l := by
  simp [CostMap.get, h]

theorem at_congr {m m' : CostMap K} {l : String} (h : m'.data l = m.data l) (i : Idx) :
    m'.at l i = m.at l i := by
  simp [CostMap.at, h]

theorem setAt_eq {m : CostMap K} {l : String} {a : Mat Cost} (ha : m.data l = some a) {i : Idx}
    (hi : a.InRange i.x i.y) (v : Cost) :
    setAt l i v m = (.ok (), m.setData l (a.set i.x i.y v)) := by
  simp [setAt, ha, hi]

/-- What a write through `at` does to every later read. -/
theorem setAt_spec {m : CostMap K} (hc : m.Coherent) {l : String} (hl : m.exists l = true) {i : Idx}
    (hi : i.In m.size) (v : Cost) :
    ∃ m', setAt l i v m = (.ok (), m') ∧ SameShape m m' ∧
      (∀ l' j, m'.at l' j = if l' = l ∧ j = i then .ok v else m.at l' j) ∧
      ∀ l', l' ≠ l → m'.data l' = m.data l' := by
  obtain ⟨a, ha⟩ := exists_iff.mp hl
  have hr := (hc.inRange ha i).mpr hi
  refine ⟨_, setAt_eq ha hr v, SameShape.setData ha rfl rfl, ?_, ?_⟩
  · intro l' j
    rw [at_setData]
    by_cases h : l' = l
    · subst h
      simp only [if_true, true_and, a.get?_set]
      by_cases hj : j = i
      · subst hj
        obtain ⟨c, hc'⟩ := a.exists_get? hr
        simp [hc']
      · have : ¬ (j.x = i.x ∧ j.y = i.y) := fun h => hj (Idx.ext h.1 h.2)
        simp [hj, this, at_eq ha]
    · simp [h]
  · intro l' h; simp [setData, h]

theorem map_ext {m m' : CostMap K} (hg : SameGeometry m m') (hm : SameMeta m m')
    (hl : m'.layers = m.layers) (hd : m'.data = m.data) : m' = m := by
  obtain ⟨h1, h2, h3, h4, h5⟩ := hg
  obtain ⟨h6, h7, h8⟩ := hm
  cases m; cases m'
  simp_all

end CostMap
end CostMapModel

import Verif.Model.MachineMerge
import Verif.Lemmas.Machine
import Verif.Lemmas.History
import Verif.Lemmas.RoundedMerge

/-! # Merging with 32-bit integers -/

set_option linter.unusedSectionVars false

namespace CostMapModel
variable {K : Type} [Field K] [LinearOrder K] [IsStrictOrderedRing K] [FloorRing K]

open Act (Keeps)

/-- Two loops whose bodies agree on the states they meet. -/
theorem forEach_congr_on {σ α : Type} {P : σ → Prop} {f g : α → Act σ Unit} (hk : ∀ a, Keeps P (g a))
    (h : ∀ a s, P s → f a s = g a s) : ∀ (xs : List α) (s : σ), P s → Act.forEach f xs s = Act.forEach g xs s
  | [], _, _ => rfl
  | a :: xs, s, hs => by
    show Act.bind (f a) (fun _ => Act.forEach f xs) s = Act.bind (g a) (fun _ => Act.forEach g xs) s
    have hk' := hk a s hs
    unfold Act.bind
    rw [h a s hs]
    rcases e : g a s with ⟨r, s'⟩
    rw [e] at hk'
    cases r with
    | ok u => exact forEach_congr_on hk h xs s' hk'
    | _ => rfl

namespace CostMap

/-- What the loops over the cells need and keep. -/
structure Fits (m : CostMap K) : Prop where
  start : m.startIndex.In m.size
  small : m.Small

theorem Fits.congr {m m' : CostMap K} (h : SameGeometry m m') (hm : m.Fits) : m'.Fits :=
  ⟨by rw [h.startIndex, h.size]; exact hm.start, ⟨by rw [h.size]; exact hm.small.x, by rw [h.size]; exact hm.small.y⟩⟩

theorem stable_fits : Stable (Fits (K := K)) :=
  ⟨fun h hm => hm.congr h.geo, fun _ _ h hm => hm.congr h, fun l a m hm => hm.congr (add_geometry l a m)⟩

theorem newI_eq {m : CostMap K} (h : m.Fits) : CostMapIter.newI m = some (CostMapIter.new m) := by
  obtain ⟨s1, s2, s3, s4⟩ := h.start
  have := h.small.x; have := h.small.y
  unfold CostMapIter.newI
  rw [both_eq (i32_eq (z := m.startIndex.x + m.size.x) (by omega) (by omega))
    (i32_eq (z := m.startIndex.y + m.size.y) (by omega) (by omega)), Option.bind_some,
    both_eq (i32_eq (z := m.startIndex.x + m.size.x - 1) (by omega) (by omega))
    (i32_eq (z := m.startIndex.y + m.size.y - 1) (by omega) (by omega)), Option.bind_some,
    both_eq (clampI_eq (by omega) (by omega)) (clampI_eq (by omega) (by omega))]
  rfl

/-- The loop over the cells with the machine's iterator and a body that agrees with `g`. -/
theorem forCellsI_eq {f g : Idx → Act (CostMap K) Unit} (hk : ∀ i, Keeps Fits (g i)) (h : ∀ i s, Fits s → f i s = g i s)
    {m : CostMap K} (hm : m.Fits) : forCellsI f m = forCells g m := by
  have hv := costMapIter_visits hm.start clamp1
  have e1 : forCellsI f m = Act.forEach f m.cells m := by
    unfold forCellsI
    rw [newI_eq hm]
    refine Act.forIter_eq f (CostMapIter.visitsI ⟨hm.start, hm.small.x, hm.small.y, hm.start⟩ hv) _ ?_ m
    rw [List.length_map, rowMajor_length]
    omega
  rw [e1, forCells_eq hm.start, forEach_congr_on hk h _ _ hm]

end CostMap
end CostMapModel

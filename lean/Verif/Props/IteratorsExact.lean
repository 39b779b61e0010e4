import Verif.Props.Iterators
import Verif.Props.Container

/-! # Exactly when the circle and ellipse iterators work, and what erase does to the basic layers (C03, C17, C18) -/

set_option linter.unusedSectionVars false

namespace CostMapModel
open CostMap
variable {K : Type} [Field K] [LinearOrder K] [IsStrictOrderedRing K] [FloorRing K]

/-- C03, exactly: after erasing an existing layer, its name is gone from the basic layers if and only if it was there at
most once. -/
theorem C03_basic_layers_iff {m : CostMap K} (hm : m.Coherent) {l : String} (hl : m.exists l = true) :
    l ∉ (erase l m).2.basicLayers ↔ m.basicLayers.count l ≤ 1 := by
  have hn : (m.data l).isNone = false := by
    have : (m.data l).isSome = true := hl
    simp [Option.isSome_iff_ne_none] at *; exact this
  have hmem : l ∈ m.layers := (hm.mem_iff l).mpr hl
  have e : (erase l m).2.basicLayers = if l ∈ m.basicLayers then m.basicLayers.erase l else m.basicLayers := by
    unfold erase
    simp only [hn, Bool.false_eq_true, if_false, hmem, not_true_eq_false]
    split
    · simp [eraseFirst_eq]
    · rfl
  rw [e, ← List.count_eq_zero]
  split
  · rw [List.count_erase_self]; omega
  · rename_i h
    rw [List.count_eq_zero.mpr h]; simp

/-- C17, exactly: for a circle with two or more cells, the iteration visits exactly these cells if and only if the seam of
the circular buffer is outside the circle's box. -/
theorem C17_circle_iff {m : CostMap K} (h : m.Geo) (center : Vec K) {radius : K} (hr : 0 ≤ radius)
    (htl : EpsOk m ⟨center.x + radius, center.y + radius⟩)
    (hbr : EpsOk m ⟨center.x - radius, center.y - radius⟩) {i j : Idx} (hij : i ≠ j) {p q : Vec K}
    (hp : m.getPosition i = some p) (hpc : dist2 p center ≤ radius ^ 2)
    (hq : m.getPosition j = some q) (hqc : dist2 q center ≤ radius ^ 2) :
    (∃ it xs, circleIter m center radius = .ok it ∧ Visits ShapeIter.ops it xs ∧
      Enumerates xs (fun i => ∃ p, m.getPosition i = some p ∧ dist2 p center ≤ radius ^ 2)) ↔
      SeamFree m ⟨center.x + radius, center.y + radius⟩ ⟨center.x - radius, center.y - radius⟩ := by
  refine ⟨fun ⟨it, xs, h1, h2, h3⟩ => ?_, fun hf => C17_circle_partial h center hr htl hbr hf⟩
  by_contra hf
  obtain ⟨it', xs', e1, e2, e3⟩ := C17_circle_across_the_seam h center hr htl hbr hf
  rw [h1] at e1
  obtain rfl : it = it' := Res.ok.inj e1
  rw [e2.unique h2] at e3
  exact hij (mem_of_length_le_one e3 ((h3.2 i).mpr ⟨p, hp, hpc⟩) ((h3.2 j).mpr ⟨q, hq, hqc⟩))

/-- C18, exactly, in the same way. -/
theorem C18_ellipse_iff {m : CostMap K} (h : m.Geo) {sqrt : K → K}
    (center : Vec K) {len : Vec K} {c s : K} (sx : SqrtOk sqrt ((c * len.x) ^ 2 + (-s * len.y) ^ 2))
    (sy : SqrtOk sqrt ((s * len.x) ^ 2 + (c * len.y) ^ 2))
    (hcs : c ^ 2 + s ^ 2 = 1) (hlx : len.x ≠ 0) (hly : len.y ≠ 0)
    (htl : EpsOk m ⟨center.x + (ellipseHalf sqrt len c s).x, center.y + (ellipseHalf sqrt len c s).y⟩)
    (hbr : EpsOk m ⟨center.x - (ellipseHalf sqrt len c s).x, center.y - (ellipseHalf sqrt len c s).y⟩)
    {i j : Idx} (hij : i ≠ j) {p q : Vec K}
    (hp : m.getPosition i = some p) (hpc : InEllipse center len c s p)
    (hq : m.getPosition j = some q) (hqc : InEllipse center len c s q) :
    (∃ it xs, ellipseIter sqrt m center len c s = .ok it ∧ Visits ShapeIter.ops it xs ∧
      Enumerates xs (fun i => ∃ p, m.getPosition i = some p ∧ InEllipse center len c s p)) ↔
      SeamFree m ⟨center.x + (ellipseHalf sqrt len c s).x, center.y + (ellipseHalf sqrt len c s).y⟩
        ⟨center.x - (ellipseHalf sqrt len c s).x, center.y - (ellipseHalf sqrt len c s).y⟩ := by
  refine ⟨fun ⟨it, xs, h1, h2, h3⟩ => ?_, fun hf => C18_ellipse_partial h center sx sy hcs hlx hly htl hbr hf⟩
  by_contra hf
  obtain ⟨it', xs', e1, e2, e3⟩ := C18_ellipse_across_the_seam h center sx sy htl hbr hf
  rw [h1] at e1
  obtain rfl : it = it' := Res.ok.inj e1
  rw [e2.unique h2] at e3
  exact hij (mem_of_length_le_one e3 ((h3.2 i).mpr ⟨p, hp, hpc⟩) ((h3.2 j).mpr ⟨q, hq, hqc⟩))

/-- The hypotheses of C17 are met on a moved map, across its seam. -/
example : ¬ ∃ it xs, circleIter Demo.rotated ⟨1, -1⟩ 1 = .ok it ∧ Visits ShapeIter.ops it xs ∧
      Enumerates xs (fun i => ∃ p, Demo.rotated.getPosition i = some p ∧ dist2 p ⟨1, -1⟩ ≤ 1 ^ 2) := by
  rw [C17_circle_iff Demo.rotated_geo ⟨1, -1⟩ (radius := 1) (by norm_num) (by decide +kernel) (by decide +kernel)
    (i := ⟨0, 0⟩) (j := ⟨0, 3⟩) (by decide) (p := ⟨1, -5 / 4⟩) (q := ⟨1, -3 / 4⟩) (by decide +kernel)
    (by norm_num [dist2]) (by decide +kernel) (by norm_num [dist2])]
  decide +kernel
example : (Demo.base.setBasicLayers ["a", "a"]).exists "a" = true ∧
    (Demo.base.setBasicLayers ["a", "a"]).basicLayers.count "a" = 2 := by decide +kernel

end CostMapModel

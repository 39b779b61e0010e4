import Verif.Props.Line
import Verif.Lemmas.Move

/-! # Exactly when the cells of a line between two positions are connected (C62) -/

set_option linter.unusedSectionVars false

namespace CostMapModel
open CostMap
variable {K : Type} [Field K] [LinearOrder K] [IsStrictOrderedRing K] [FloorRing K]

/-- Two cells that are neighbours in the buffer but at opposite ends of the map. -/
theorem split_line {norm : Vec K → K} {m : CostMap K} (h : m.Geo) {i j : Idx} (hi : i.In m.size) (hj : j.In m.size)
    (hd : max |j.x - i.x| |j.y - i.y| = 1)
    (hfar : 1 < |(m.logical j).x - (m.logical i).x| ∨ 1 < |(m.logical j).y - (m.logical i).y|) :
    ∃ a b, m.isInside a = true ∧ m.isInside b = true ∧
      ∀ it xs, LineIter.ofPositions norm m a b = .ok (some it) → Visits LineIter.ops it xs →
        ¬ xs.IsChain (fun i j => ∀ p q, m.getPosition i = some p → m.getPosition j = some q →
          |p.x - q.x| ≤ m.resolution ∧ |p.y - q.y| ≤ m.resolution) := by
  obtain ⟨a, ha, ha1, ha2⟩ := C10_index_position_index h hi
  obtain ⟨b, hb, hb1, hb2⟩ := C10_index_position_index h hj
  refine ⟨a, b, ha1, hb1, fun it xs h1 h2 hch => ?_⟩
  obtain ⟨it', xs', e1, e2, e3⟩ := C21_both_inside (norm := norm) ha1 hb1
  rw [h1] at e1
  obtain rfl : it = it' := Option.some.inj (Res.ok.inj e1)
  rw [← h2.unique e2, ha2, hb2] at e3
  have hlen := e3.length
  simp only at hlen
  rw [hd] at hlen
  have hf := e3.first
  have hl := e3.last
  match xs, hlen, hf, hl, hch with
  | [x, y], _, hf, hl, hch =>
    simp only [List.head?_cons, Option.some.injEq] at hf
    simp only [List.getLast?_cons_cons, List.getLast?_singleton, Option.some.injEq] at hl
    subst hf hl
    have hc : ∀ p q, m.getPosition x = some p → m.getPosition y = some q →
          |p.x - q.x| ≤ m.resolution ∧ |p.y - q.y| ≤ m.resolution := by
      simpa using hch
    obtain ⟨c1, c2⟩ := hc a b ha hb
    obtain ⟨r1, r2⟩ := C12_regular_grid h ha hb
    have hr := h.res_pos
    rw [r1, abs_mul, abs_of_pos hr] at c1
    rw [r2, abs_mul, abs_of_pos hr] at c2
    have d1 : |(((m.logical y).x - (m.logical x).x : Int) : K)| ≤ 1 := by
      by_contra hn; push Not at hn; nlinarith
    have d2 : |(((m.logical y).y - (m.logical x).y : Int) : K)| ≤ 1 := by
      by_contra hn; push Not at hn; nlinarith
    have d1' : |(m.logical y).x - (m.logical x).x| ≤ 1 := by exact_mod_cast d1
    have d2' : |(m.logical y).y - (m.logical x).y| ≤ 1 := by exact_mod_cast d2
    omega
  | [], hlen, _, _, _ => simp at hlen
  | [_], hlen, _, _, _ => simp at hlen
  | _ :: _ :: _ :: _, hlen, _, _, _ => simp only [List.length_cons] at hlen; push_cast at hlen; omega

/-- C62, exactly: on every line between two positions of the map consecutive cells are neighbours in the world, if and only
if on each axis the buffer was not rotated or has at most two lines. -/
theorem C62_lines_connected_iff {m : CostMap K} (h : m.Geo) (norm : Vec K → K) :
    (∀ a b, m.isInside a = true → m.isInside b = true →
      ∃ it xs, LineIter.ofPositions norm m a b = .ok (some it) ∧ Visits LineIter.ops it xs ∧
        xs.IsChain (fun i j => ∀ p q, m.getPosition i = some p → m.getPosition j = some q →
          |p.x - q.x| ≤ m.resolution ∧ |p.y - q.y| ≤ m.resolution)) ↔
      (m.startIndex.x = 0 ∨ m.size.x ≤ 2) ∧ (m.startIndex.y = 0 ∨ m.size.y ≤ 2) := by
  obtain ⟨s1, s2, s3, s4⟩ := h.start
  constructor
  · intro H
    by_contra hn
    have hcase : (m.startIndex.x ≠ 0 ∧ 2 < m.size.x) ∨ (m.startIndex.y ≠ 0 ∧ 2 < m.size.y) := by omega
    obtain ⟨i, j, hi, hj, hd, hfar⟩ : ∃ i j : Idx, i.In m.size ∧ j.In m.size ∧ max |j.x - i.x| |j.y - i.y| = 1 ∧
        (1 < |(m.logical j).x - (m.logical i).x| ∨ 1 < |(m.logical j).y - (m.logical i).y|) := by
      rcases hcase with ⟨h0, h2⟩ | ⟨h0, h2⟩
      · have hi : (⟨m.startIndex.x, 0⟩ : Idx).In m.size := ⟨s1, s2, le_refl _, h.size_y⟩
        have hj : (⟨m.startIndex.x - 1, 0⟩ : Idx).In m.size :=
          ⟨by show 0 ≤ m.startIndex.x - 1; omega, by show m.startIndex.x - 1 < _; omega, le_refl _, h.size_y⟩
        refine ⟨_, _, hi, hj, ?_, Or.inl ?_⟩
        · show max |m.startIndex.x - 1 - m.startIndex.x| |(0 : Int) - 0| = 1
          have : m.startIndex.x - 1 - m.startIndex.x = -1 := by ring
          rw [this]; decide
        · simp only [CostMap.logical]
          rw [emod_sub_eq_unw hj.1 hj.2.1 s1 s2, emod_sub_eq_unw hi.1 hi.2.1 s1 s2]
          simp only [unw]
          rw [if_pos (le_refl _), if_neg (by omega)]
          rw [abs_of_nonneg (by omega)]; omega
      · have hi : (⟨0, m.startIndex.y⟩ : Idx).In m.size := ⟨le_refl _, h.size_x, s3, s4⟩
        have hj : (⟨0, m.startIndex.y - 1⟩ : Idx).In m.size :=
          ⟨le_refl _, h.size_x, by show 0 ≤ m.startIndex.y - 1; omega, by show m.startIndex.y - 1 < _; omega⟩
        refine ⟨_, _, hi, hj, ?_, Or.inr ?_⟩
        · show max |(0 : Int) - 0| |m.startIndex.y - 1 - m.startIndex.y| = 1
          have : m.startIndex.y - 1 - m.startIndex.y = -1 := by ring
          rw [this]; decide
        · simp only [CostMap.logical]
          rw [emod_sub_eq_unw hj.2.2.1 hj.2.2.2 s3 s4, emod_sub_eq_unw hi.2.2.1 hi.2.2.2 s3 s4]
          simp only [unw]
          rw [if_pos (le_refl _), if_neg (by omega)]
          rw [abs_of_nonneg (by omega)]; omega
    obtain ⟨a, b, ha, hb, hno⟩ := split_line (norm := norm) h hi hj hd hfar
    obtain ⟨it, xs, e1, e2, e3⟩ := H a b ha hb
    exact hno it xs e1 e2 e3
  · rintro ⟨hx, hy⟩ a b ha hb
    obtain ⟨it, xs, h1, h2, h3⟩ := C21_both_inside (norm := norm) ha hb
    refine ⟨it, xs, h1, h2, h3.chain.imp ?_⟩
    rintro i j ⟨-, nx, ny⟩ p q hp hq
    have hi : i.In m.size := by
      by_contra hn; rw [getPosition_none hn] at hp; cases hp
    have hj : j.In m.size := by
      by_contra hn; rw [getPosition_none hn] at hq; cases hq
    obtain ⟨r1, r2⟩ := C12_regular_grid h hp hq
    have hr := h.res_pos
    have nx' := abs_le.mp nx
    have ny' := abs_le.mp ny
    obtain ⟨i1, i2, i3, i4⟩ := hi
    obtain ⟨j1, j2, j3, j4⟩ := hj
    have e1 : |(m.logical j).x - (m.logical i).x| ≤ 1 := by
      simp only [CostMap.logical]
      rw [emod_sub_eq_unw j1 j2 s1 s2, emod_sub_eq_unw i1 i2 s1 s2]
      simp only [unw]
      rw [abs_le]
      split_ifs <;> omega
    have e2 : |(m.logical j).y - (m.logical i).y| ≤ 1 := by
      simp only [CostMap.logical]
      rw [emod_sub_eq_unw j3 j4 s3 s4, emod_sub_eq_unw i3 i4 s3 s4]
      simp only [unw]
      rw [abs_le]
      split_ifs <;> omega
    have f1 : |(((m.logical j).x - (m.logical i).x : Int) : K)| ≤ 1 := by exact_mod_cast e1
    have f2 : |(((m.logical j).y - (m.logical i).y : Int) : K)| ≤ 1 := by exact_mod_cast e2
    rw [r1, r2, abs_mul, abs_mul, abs_of_pos hr]
    exact ⟨by nlinarith, by nlinarith⟩

/-- Both sides occur: the condition holds of the unmoved sample map and not of the moved one. -/
example : ((Demo.base.startIndex.x = 0 ∨ Demo.base.size.x ≤ 2) ∧ (Demo.base.startIndex.y = 0 ∨ Demo.base.size.y ≤ 2)) ∧
    ¬ ((Demo.rotated.startIndex.x = 0 ∨ Demo.rotated.size.x ≤ 2) ∧
      (Demo.rotated.startIndex.y = 0 ∨ Demo.rotated.size.y ≤ 2)) := by decide +kernel

end CostMapModel

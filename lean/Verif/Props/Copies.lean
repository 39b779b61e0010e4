import Verif.Model.SharedIterators
import Verif.Model.Line
import Verif.Model.Spiral
import Verif.Props.Demo

/-! # Copies of iterators: C24 -/

set_option linter.unusedSectionVars false

namespace CostMapModel
open CostMap

/-- C24 (partial: iterators held by value, that is CostMapIterator, SubmapIterator, LineIterator and SpiralIterator).
Whatever a program does to other iterator variables, including incrementing copies of `a`, `a` denotes
the same iterator as before. -/
theorem C24_value_copies_independent_partial {σ β : Type} (I : IterOps σ β) (a : Nat) :
    ∀ (prog : List (IterStmt σ)) (e e' : ValueVars σ), (∀ s ∈ prog, s.target ≠ a) →
      valueRun I prog e = .ok e' → e' a = e a
  | [], e, e', _, h => by cases h; rfl
  | s :: ss, e, e', hs, h => by
    have hne := hs s (by simp)
    have hrest : ∀ t ∈ ss, t.target ≠ a := fun t ht => hs t (by simp [ht])
    simp only [valueRun] at h
    cases hst : valueStep I e s with
    | ok e1 =>
      rw [hst] at h
      have ih := C24_value_copies_independent_partial I a ss e1 e' hrest h
      rw [ih]
      cases s with
      | construct v it =>
        simp only [valueStep, Res.ok.injEq] at hst
        subst hst
        exact if_neg fun h => hne h.symm
      | copy d s =>
        simp only [valueStep] at hst
        split at hst
        · cases hst
        · simp only [Res.ok.injEq] at hst
          subst hst
          exact if_neg fun h => hne h.symm
      | incr v =>
        simp only [valueStep] at hst
        split at hst
        · cases hst
        · rename_i it _
          cases hn : I.next it with
          | ok it' =>
            rw [hn] at hst
            simp only [Res.bind_ok, Res.ok.injEq] at hst
            subst hst
            exact if_neg fun h => hne h.symm
          | _ => rw [hn] at hst; cases hst
    | _ => rw [hst] at h; cases h

/-- C24. After copying `a` to `b`, both denote the same iterator, so the copy yields what the original would. -/
theorem C24_value_copy_yields_the_same {σ β : Type} (I : IterOps σ β) {e e' : ValueVars σ} {a b : Nat}
    (h : valueStep I e (.copy b a) = .ok e') : e' b = e a ∧ (b ≠ a → e' a = e a) := by
  simp only [valueStep] at h
  split at h
  · cases h
  · rename_i it hit
    simp only [Res.ok.injEq] at h
    subst h
    exact ⟨by simp [hit], fun hne => if_neg fun h => hne h.symm⟩

/-- C24. For CostMapIterator, SubmapIterator and LineIterator, `!=` tells whether the two are at different cells. -/
theorem C24_ne_compares_cells_partial :
    (∀ a b : CostMapIter, a.ne b = true ↔ CostMapIter.ops.deref a ≠ CostMapIter.ops.deref b) ∧
    (∀ a b : SubmapIter, a.ne b = true ↔ SubmapIter.ops.deref a ≠ SubmapIter.ops.deref b) ∧
    (∀ a b : LineIter, a.ne b = true ↔ LineIter.ops.deref a ≠ LineIter.ops.deref b) := by
  refine ⟨fun a b => ?_, fun a b => ?_, fun a b => ?_⟩ <;>
    simp [CostMapIter.ne, SubmapIter.ne, LineIter.ne, CostMapIter.ops, SubmapIter.ops, LineIter.ops]

section
variable {K : Type} [Field K] [LinearOrder K] [FloorRing K]

/-- C24 is false for SpiralIterator: `!=` answers false whatever the other iterator is. -/
theorem C24_spiral_ne_is_always_false (a b : SpiralIter K) : a.ne b = .ok false ∨ a.ne b = .ub := by
  unfold SpiralIter.ne
  split
  · right; rfl
  · left; simp

/-- Distinct variables have distinct internal iterators, all of them allocated. -/
def Unshared (e : SharedVars K) : Prop :=
  (∀ a o, e.vars a = some o → o.2 < e.fresh) ∧
  ∀ a b o o', a ≠ b → e.vars a = some o → e.vars b = some o' → o.2 ≠ o'.2

/-- C24 (partial: circle, ellipse and polygon iterators that are never copied). A program without copies never changes
what a variable yields by incrementing or constructing other ones. Missing: programs that copy, for which the
claim is false (`C24_shared_copies_advance_together`, `C24_false`). -/
theorem C24_shapes_without_copies_partial (a : Nat) :
    ∀ (prog : List (IterStmt (ShapeIter K))) (e e' : SharedVars K), Unshared e → (∀ s ∈ prog, s.isCopy = false) →
      (∀ s ∈ prog, s.target ≠ a) → SharedVars.run prog e = .ok e' → e'.deref a = e.deref a ∧ Unshared e'
  | [], e, e', hu, _, _, h => by cases h; exact ⟨rfl, hu⟩
  | s :: ss, e, e', hu, hc, hs, h => by
    have hne := hs s (by simp)
    have hcs := hc s (by simp)
    simp only [SharedVars.run] at h
    cases hst : e.step s with
    | ok e1 =>
      rw [hst] at h
      have key : e1.deref a = e.deref a ∧ Unshared e1 := by
        cases s with
        | construct v it =>
          simp only [SharedVars.step, Res.ok.injEq] at hst
          subst hst
          constructor
          · simp only [SharedVars.deref, SharedVars.load]
            rw [if_neg (fun h => hne h.symm)]
            cases hv : e.vars a with
            | none => rfl
            | some o =>
              have := hu.1 a o hv
              simp only [Option.map_some]
              rw [if_neg (by omega)]
          · constructor
            · intro x o hx
              simp only at hx
              split at hx
              · cases hx; exact Nat.lt_succ_self _
              · exact Nat.lt_succ_of_lt (hu.1 x o hx)
            · intro x y o o' hxy hx hy
              simp only at hx hy
              split at hx
              · cases hx
                rw [if_neg (by intro h; subst_vars; exact hxy rfl)] at hy
                have := hu.1 y o' hy
                simp only
                omega
              · split at hy
                · cases hy
                  have := hu.1 x o hx
                  simp only
                  omega
                · exact hu.2 x y o o' hxy hx hy
        | copy d s => simp [IterStmt.isCopy] at hcs
        | incr v =>
          simp only [SharedVars.step] at hst
          split at hst
          · cases hst
          · rename_i o ho
            cases hn : ShapeIter.next { o.1 with internal := e.heap o.2 } with
            | ok it' =>
              rw [hn] at hst
              simp only [Res.bind_ok, Res.ok.injEq] at hst
              subst hst
              refine ⟨?_, hu⟩
              simp only [SharedVars.deref, SharedVars.load]
              cases hv : e.vars a with
              | none => rfl
              | some o' =>
                simp only [Option.map_some]
                rw [if_neg (hu.2 a v o' o (fun h => hne h.symm) hv ho)]
            | _ => rw [hn] at hst; cases hst
      obtain ⟨h1, h2⟩ := C24_shapes_without_copies_partial a ss e1 e' key.2 (fun t ht => hc t (by simp [ht]))
        (fun t ht => hs t (by simp [ht])) h
      exact ⟨h1.trans key.1, h2⟩
    | _ => rw [hst] at h; cases h

theorem start_unshared : Unshared (SharedVars.start : SharedVars K) :=
  ⟨fun a o h => by simp [SharedVars.start] at h, fun a b o o' _ h => by simp [SharedVars.start] at h⟩

/-- C24 is false for circle, ellipse and polygon iterators: once `a` has been copied to `b`, incrementing `b` any
number of times moves `a` to the same cell as `b`, and `a != b` is false. -/
theorem C24_shared_copies_advance_together {e e1 e' : SharedVars K} {a b n : Nat}
    (h : e.step (.copy b a) = .ok e1) (h' : SharedVars.run (List.replicate n (.incr b)) e1 = .ok e') :
    e'.deref a = e'.deref b ∧ e'.ne a b = .ok false := by
  have hinv : ∃ o, e1.vars a = some o ∧ e1.vars b = some o := by
    simp only [SharedVars.step] at h
    split at h
    · cases h
    · rename_i o ho
      simp only [Res.ok.injEq] at h
      subst h
      exact ⟨o, by simp [ho], by simp⟩
  clear h e
  induction n generalizing e1 with
  | zero =>
    simp only [List.replicate, SharedVars.run, Res.ok.injEq] at h'
    subst h'
    obtain ⟨o, h1, h2⟩ := hinv
    simp [SharedVars.deref, SharedVars.load, SharedVars.ne, h1, h2]
  | succ n ih =>
    simp only [List.replicate_succ, SharedVars.run] at h'
    cases hst : e1.step (.incr b) with
    | ok e2 =>
      rw [hst] at h'
      refine ih h' ?_
      obtain ⟨o, h1, h2⟩ := hinv
      simp only [SharedVars.step, h2] at hst
      cases hn : ShapeIter.next { o.1 with internal := e1.heap o.2 } with
      | ok it' =>
        rw [hn] at hst
        simp only [Res.bind_ok, Res.ok.injEq] at hst
        subst hst
        exact ⟨o, h1, h2⟩
      | _ => rw [hn] at hst; cases hst
    | _ => rw [hst] at h'; cases h'

end

/-- The cell variable 0 yields after a program that constructs a polygon iterator (over a rectangle) in it, and whether it differs from
variable 1. -/
def polygonProgram (prog : ShapeIter ℚ → List (IterStmt (ShapeIter ℚ))) : Res (Res Idx × Res Bool) :=
  (polygonIter Demo.base [⟨2, -1 / 4⟩, ⟨2, -7 / 4⟩, ⟨0, -7 / 4⟩, ⟨0, -1 / 4⟩]).bind fun it =>
    (SharedVars.run (prog it) SharedVars.start).bind fun e => .ok (e.deref 0, e.ne 0 1)

/-- C24 is false, concretely: `PolygonIterator a(...); PolygonIterator b(a); ++b;` changes what `*a` yields. -/
theorem C24_false :
    polygonProgram (fun it => [.construct 0 it]) = .ok (.ok ⟨1, 1⟩, .ub) ∧
    polygonProgram (fun it => [.construct 0 it, .copy 1 0, .incr 1]) = .ok (.ok ⟨1, 2⟩, .ok false) := by
  constructor <;> decide +kernel

/-- C24 is false, concretely: two polygon iterators constructed alike are at the same cell, and `a != b` is true. -/
theorem C24_ne_false :
    polygonProgram (fun it => [.construct 0 it, .construct 1 it]) = .ok (.ok ⟨1, 1⟩, .ok true) ∧
    polygonProgram (fun it => [.construct 1 it, .construct 0 it]) = .ok (.ok ⟨1, 1⟩, .ok true) := by
  constructor <;> decide +kernel

/-- A program on a CostMapIterator and a copy of it that runs to its end. -/
example : ((valueRun CostMapIter.ops [.construct 0 (CostMapIter.new Demo.rotated), .copy 1 0, .incr 1, .incr 1]
      (fun _ => none)).bind fun e => .ok (e 0, (e 1).map (·.index))) =
    .ok (some (CostMapIter.new Demo.rotated), some ⟨3, 0⟩) := by decide +kernel

/-- A program without copies on two polygon iterators that runs to its end. -/
example : polygonProgram (fun it => [.construct 0 it, .construct 1 it, .incr 1]) = .ok (.ok ⟨1, 1⟩, .ok true) := by
  decide +kernel

end CostMapModel

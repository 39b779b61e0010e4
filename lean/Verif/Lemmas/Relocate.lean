import Verif.Model.Line
import Verif.Model.Spiral
import Verif.Model.Merge
import Verif.Spec.Iteration
import Verif.Spec.Relocate
import Mathlib.Tactic.Ring
import Mathlib.Tactic.Linarith
import Mathlib.Algebra.Order.Field.Basic

/-!
# Calls that commute with shifting the map
-/

set_option linter.unusedSectionVars false

namespace CostMapModel
open CostMap

/-- `g` does to the shifted map what `f` does to the map. -/
def Shifts {K α : Type} [Add K] (d : Vec K) (f g : Act (CostMap K) α) : Prop :=
  ∀ m, g (m.shifted d) = ((f m).1, (f m).2.shifted d)

namespace Shifts
section Plain
variable {K α β : Type} [Add K] {d : Vec K}

theorem pure (a : α) : Shifts d (Act.pure a) (Act.pure a) := fun _ => rfl

theorem lift (r : Res α) : Shifts d (Act.lift r) (Act.lift r) := fun _ => rfl

theorem bind {f g : Act (CostMap K) α} {f' g' : α → Act (CostMap K) β} (h : Shifts d f g) (h' : ∀ a, Shifts d (f' a) (g' a)) :
    Shifts d (Act.bind f f') (Act.bind g g') := by
  intro m
  simp only [Act.bind, h m]
  rcases f m with ⟨r, s⟩
  cases r with
  | ok a => exact h' a s
  | _ => rfl

theorem forEach {f g : α → Act (CostMap K) Unit} (h : ∀ a, Shifts d (f a) (g a)) :
    ∀ xs : List α, Shifts d (Act.forEach f xs) (Act.forEach g xs)
  | [] => fun _ => rfl
  | x :: xs => bind (h x) fun _ => forEach h xs

theorem forIter {τ : Type} (I : IterOps τ β) {f g : β → Act (CostMap K) Unit} (h : ∀ a, Shifts d (f a) (g a)) :
    ∀ n (it : τ), Shifts d (Act.forIter I f n it) (Act.forIter I g n it)
  | 0, _ => fun _ => rfl
  | n + 1, it => by
    unfold Act.forIter
    split
    · exact pure ()
    · exact bind (lift _) fun x => bind (h x) fun _ => bind (lift _) fun it' => forIter I h n it'

theorem read {f : CostMap K → Res α} (h : ∀ m, f (m.shifted d) = f m) : Shifts d (Act.read f) (Act.read f) := by
  intro m
  show (f (m.shifted d), _) = _
  rw [h m]; rfl

theorem setAt (l : String) (i : Idx) (v : Cost) : Shifts d (CostMap.setAt l i v) (CostMap.setAt l i v) := by
  intro m
  unfold CostMap.setAt
  show (match m.data l with | none => _ | some a => _) = _
  cases m.data l with
  | none => rfl
  | some a =>
    simp only
    split <;> rfl

theorem clearBlock (i j n k : Int) (l : String) :
    Shifts d (CostMap.clearBlock i j n k l) (CostMap.clearBlock i j n k l) := by
  intro m
  unfold CostMap.clearBlock
  show (match m.data l with | none => _ | some a => _) = _
  cases m.data l with
  | none => rfl
  | some a =>
    simp only
    split <;> rfl

theorem clearStrip (a : Fin 2) (i n : Int) : Shifts d (CostMap.clearStrip a i n) (CostMap.clearStrip a i n) := by
  intro m
  unfold CostMap.clearStrip
  split
  · exact forEach (fun l => clearBlock _ _ _ _ l) _ m
  · exact forEach (fun l => clearBlock _ _ _ _ l) _ m

theorem dropAxis (bnd : Int → Int → Int) (s : Idx) (a : Fin 2) :
    Shifts d (CostMap.dropAxis bnd s a) (CostMap.dropAxis bnd s a) := by
  intro m
  unfold CostMap.dropAxis
  simp only [show (m.shifted d).size = m.size from rfl, show (m.shifted d).startIndex = m.startIndex from rfl]
  generalize bnd _ (comp m.size a) = index
  split
  · split
    · rfl
    split
    · exact bind (clearStrip _ _ _) (fun _ => pure _) m
    · exact bind (clearStrip _ _ _) (fun _ => bind (clearStrip _ _ _) fun _ => pure _) m
  · rfl

theorem add (l : String) (a : Mat Cost) : Shifts d (CostMap.add l a) (CostMap.add l a) := by
  intro m
  unfold CostMap.add
  simp only [show (m.shifted d).size = m.size from rfl, show (m.shifted d).layers = m.layers from rfl,
    show (m.shifted d).exists l = m.exists l from rfl]
  split
  · rfl
  split
  · rfl
  split <;> rfl

theorem addConst (l : String) (v : Cost) : Shifts d (CostMap.addConst l v) (CostMap.addConst l v) :=
  fun m => add l _ m

end Plain

section Field
variable {K : Type} [Field K] [LinearOrder K] [FloorRing K] {d : Vec K}

theorem moveWith (bnd : Int → Int → Int) (p : Vec K) :
    Shifts d (CostMap.moveWith bnd p) (CostMap.moveWith bnd (p + d)) := by
  intro m
  unfold CostMap.moveWith
  have e : p + d - (m.shifted d).position = p - m.position := by
    ext <;> simp [shifted, setPosition]
  simp only [e, show (m.shifted d).resolution = m.resolution from rfl]
  refine bind (dropAxis _ _ _) (fun r0 => bind (dropAxis _ _ _) fun r1 => ?_) m
  intro s
  simp only [shifted, setPosition, Prod.mk.injEq, true_and, CostMap.mk.injEq, and_true]
  ext <;> simp <;> ring

end Field
end Shifts

namespace CostMap
variable {K : Type} [Field K] [LinearOrder K] [IsStrictOrderedRing K] [FloorRing K] (d : Vec K) (m : CostMap K)

theorem positionFromIndex_add (i : Idx) (len p : Vec K) (r : K) (n s : Idx) :
    positionFromIndex i len (p + d) r n s = (positionFromIndex i len p r n s).map (· + d) := by
  unfold positionFromIndex
  by_cases h : inRange i n = true
  · rw [if_pos h, if_pos h, Option.map_some, Option.some.injEq]
    ext <;> simp <;> ring
  · rw [if_neg h, if_neg h]; rfl

theorem getPosition_shifted (i : Idx) : (m.shifted d).getPosition i = (m.getPosition i).map (· + d) :=
  positionFromIndex_add d i _ _ _ _ _

theorem isInside_shifted (p : Vec K) : (m.shifted d).isInside (p + d) = m.isInside p := by
  unfold isInside withinMap
  simp only [shifted, setPosition, Vec.add_x, Vec.add_y, add_sub_add_right_eq_sub]

theorem getIndex_shifted (p : Vec K) : (m.shifted d).getIndex (p + d) = m.getIndex p := by
  have h := isInside_shifted d m p
  unfold isInside at h
  unfold getIndex indexFromPosition
  have e : ∀ a b c e : K, a + e - b - (c + e) = a - b - c := fun a b c e => by ring
  rw [h]
  simp only [shifted, setPosition, Vec.add_x, Vec.add_y, e]

theorem atPosition_shifted (l : String) (p : Vec K) : (m.shifted d).atPosition l (p + d) = m.atPosition l p := by
  unfold atPosition
  rw [getIndex_shifted]
  rfl

theorem isValid_shifted (i : Idx) : (m.shifted d).isValid i = m.isValid i := by
  have h : ∀ ls, allValid (m.shifted d) i ls = allValid m i ls := by
    intro ls
    induction ls with
    | nil => rfl
    | cons l ls ih => unfold allValid; rw [ih]; rfl
  unfold isValid isValidLayers
  simp only [show (m.shifted d).basicLayers = m.basicLayers from rfl, h]

theorem forCells_shifts {f g : Idx → Act (CostMap K) Unit} (h : ∀ i, Shifts d (f i) (g i)) :
    Shifts d (forCells f) (forCells g) := by
  intro m
  exact Shifts.forIter _ h _ _ m

theorem mergeCell_shifts (o : CostMap K) (w : Bool) (ls : List String) (i : Idx) :
    Shifts d (mergeCell o w ls i) (mergeCell (o.shifted d) w ls i) := by
  refine Shifts.bind (Shifts.read fun m => isValid_shifted d m i) fun v => ?_
  split
  · exact Shifts.pure ()
  intro s
  simp only [getPosition_shifted]
  cases s.getPosition i with
  | none => rfl
  | some p =>
    simp only [Option.map_some, isInside_shifted, getIndex_shifted]
    split
    · rfl
    · refine Shifts.forEach (fun l => ?_) ls s
      refine Shifts.bind (Shifts.lift _) fun v => ?_
      split
      · exact Shifts.pure ()
      · exact Shifts.bind (Shifts.lift _) fun c => Shifts.setAt _ _ _

theorem restoreCell_shifts (o : CostMap K) (i : Idx) :
    Shifts d (restoreCell o i) (restoreCell (o.shifted d) i) := by
  refine Shifts.bind (Shifts.read fun m => isValid_shifted d m i) fun v => ?_
  split
  · exact Shifts.pure ()
  intro s
  simp only [getPosition_shifted]
  cases s.getPosition i with
  | none => rfl
  | some p =>
    simp only [Option.map_some, isInside_shifted, getIndex_shifted]
    split
    · rfl
    · refine Shifts.forEach (fun l => ?_) _ s
      exact Shifts.bind (Shifts.lift _) fun c => Shifts.setAt _ _ _

theorem setGeometry_shifts (len : Vec K) (r : K) (p : Vec K) :
    Shifts d (setGeometry len r p) (setGeometry len r (p + d)) := by
  intro m
  unfold setGeometry
  split
  · rfl
  split
  · rfl
  split <;> rfl

theorem extendAxis_shifted (pos len pos' len' e : K) :
    extendAxis (pos + e) len (pos' + e) len' =
      ((extendAxis pos len pos' len').1 + e, (extendAxis pos len pos' len').2.1, (extendAxis pos len pos' len').2.2) := by
  have h1 : ∀ a b : K, a + e + b = a + b + e := fun a b => by ring
  have h2 : ∀ a b : K, a + e - b = a - b + e := fun a b => by ring
  unfold extendAxis
  simp only [h1, h2, add_lt_add_iff_right]
  split_ifs <;> simp <;> (try constructor) <;> ring

theorem alignAxis_shifted (r pos old e : K) (n n' : Int) : alignAxis r (pos + e) (old + e) n n' = alignAxis r pos old n n' + e := by
  unfold alignAxis
  simp only [add_sub_add_right_eq_sub]
  split_ifs <;> ring

theorem extendToInclude_shifts (o : CostMap K) : Shifts d (extendToInclude o) (extendToInclude (o.shifted d)) := by
  intro m
  unfold extendToInclude
  have ex : ∀ (m : CostMap K), (m.shifted d).position.x = m.position.x + d.x := fun _ => rfl
  have ey : ∀ (m : CostMap K), (m.shifted d).position.y = m.position.y + d.y := fun _ => rfl
  simp only [ex, ey, show ∀ m : CostMap K, (m.shifted d).length = m.length from fun _ => rfl,
    show (m.shifted d).resolution = m.resolution from rfl, extendAxis_shifted]
  split
  · refine Shifts.bind (setGeometry_shifts d _ _ ⟨_, _⟩) (fun _ => Shifts.bind ?_ fun _ =>
      Shifts.bind (forCells_shifts d fun i => restoreCell_shifts d m i) fun _ => Shifts.pure _) m
    intro s
    unfold alignTo
    simp only [ex, ey, show ∀ m : CostMap K, (m.shifted d).resolution = m.resolution from fun _ => rfl,
      show ∀ m : CostMap K, (m.shifted d).size = m.size from fun _ => rfl, alignAxis_shifted]
    rfl
  · rfl

theorem addDataFrom_shifts (o : CostMap K) (e w a : Bool) (ls : List String) :
    Shifts d (addDataFrom o e w a ls) (addDataFrom (o.shifted d) e w a ls) := by
  unfold addDataFrom
  refine Shifts.bind ?_ fun _ => Shifts.bind (Shifts.forEach (fun l => ?_) _) fun _ =>
    Shifts.bind (forCells_shifts d fun i => mergeCell_shifts d o w _ i) fun _ => Shifts.pure _
  · split
    · exact extendToInclude_shifts d o
    · exact Shifts.pure _
  · intro s
    unfold addMissing
    simp only [show (s.shifted d).layers = s.layers from rfl]
    split
    · rfl
    · exact Shifts.addConst _ _ s

theorem setAtPosition_shifts (l : String) (p : Vec K) (v : Cost) :
    Shifts d (setAtPosition l p v) (setAtPosition l (p + d) v) := by
  intro m
  unfold setAtPosition
  rw [getIndex_shifted]
  simp only
  split
  · exact Shifts.setAt _ _ _ m
  · rfl

end CostMap

section Lines
variable {K : Type} [Field K] [LinearOrder K] [IsStrictOrderedRing K] [FloorRing K]

theorem searchFrom_shifted (norm : Vec K → K) (m : CostMap K) (d stop dir : Vec K) (n : Nat) (p : Vec K) :
    LineIter.searchFrom norm (m.shifted d) (stop + d) dir n (p + d) = LineIter.searchFrom norm m stop dir n p := by
  induction n generalizing p with
  | zero => rfl
  | succ n ih =>
    unfold LineIter.searchFrom
    rw [getIndex_shifted]
    have e : (⟨(p + d).x + (m.resolution - dblEpsilon) * dir.x, (p + d).y + (m.resolution - dblEpsilon) * dir.y⟩ : Vec K) =
        ⟨p.x + (m.resolution - dblEpsilon) * dir.x, p.y + (m.resolution - dblEpsilon) * dir.y⟩ + d := by
      ext <;> simp <;> ring
    have h : ∀ a b c e : K, a + e - (b + e + c) = a - (b + c) := fun a b c e => by ring
    simp only [show (m.shifted d).resolution = m.resolution from rfl]
    rw [e, ih]
    simp only [Vec.add_x, Vec.add_y, h]

theorem indexLimited_shifted (norm : Vec K → K) (m : CostMap K) (d a b : Vec K) :
    LineIter.indexLimited norm (m.shifted d) (a + d) (b + d) = LineIter.indexLimited norm m a b := by
  unfold LineIter.indexLimited LineIter.searchFuel
  rw [searchFrom_shifted]
  simp only [Vec.add_x, Vec.add_y, add_sub_add_right_eq_sub]
  rfl

end Lines

namespace SpiralIter
variable {K : Type} [Field K] [LinearOrder K] [IsStrictOrderedRing K] [FloorRing K]

/-- The iterator over the shifted map. -/
def shifted (d : Vec K) (it : SpiralIter K) : SpiralIter K := { it with center := it.center + d, position := it.position + d }

theorem keeps_shifted (d : Vec K) (it : SpiralIter K) (n : Nat) (o : Idx) : (it.shifted d).keeps n o = it.keeps n o := by
  have h : ∀ i, (it.shifted d).isInside i = it.isInside i := by
    intro i
    unfold isInside
    simp only [show (it.shifted d).position = it.position + d from rfl, show (it.shifted d).center = it.center + d from rfl,
      show (it.shifted d).length = it.length from rfl, show (it.shifted d).resolution = it.resolution from rfl,
      show (it.shifted d).size = it.size from rfl, show (it.shifted d).radiusSquare = it.radiusSquare from rfl,
      positionFromIndex_add]
    cases positionFromIndex i it.length it.position it.resolution it.size 0 with
    | none => rfl
    | some p => simp only [Option.map_some, Vec.add_x, Vec.add_y, add_sub_add_right_eq_sub]
  unfold keeps
  simp only [h]
  rfl

theorem generateRing_shifted (d : Vec K) (it : SpiralIter K) : (it.shifted d).generateRing = it.generateRing.map (shifted d) := by
  unfold generateRing
  simp only [funext (keeps_shifted d it _)]
  simp only [show (it.shifted d).distance = it.distance from rfl]
  cases ringOffsets (it.distance + 1) with
  | none => rfl
  | some os => rfl

theorem visits_shifted (d : Vec K) {it : SpiralIter K} {xs : List Idx} (h : Visits ops it xs) : Visits ops (it.shifted d) xs := by
  induction h with
  | done h => exact .done h
  | @step s s' x xs h1 h2 h3 _ ih =>
    refine .step h1 h2 ?_ ih
    show (s.shifted d).next = _
    have h3 : s.next = .ok s' := h3
    unfold next at h3 ⊢
    simp only [show (s.shifted d).points = s.points from rfl]
    cases hp : s.points with
    | nil => rw [hp] at h3; cases h3
    | cons p ps =>
      rw [hp] at h3
      simp only at h3 ⊢
      have e : ({ s.shifted d with points := ps } : SpiralIter K) = ({ s with points := ps } : SpiralIter K).shifted d := rfl
      rw [e, show (({ s with points := ps } : SpiralIter K).shifted d).isPastEnd = ({ s with points := ps } : SpiralIter K).isPastEnd from rfl]
      by_cases hb : (ps.isEmpty && !({ s with points := ps } : SpiralIter K).isPastEnd) = true
      · rw [if_pos hb] at h3
        rw [if_pos hb, generateRing_shifted, h3]; rfl
      · rw [if_neg hb] at h3
        rw [if_neg hb]
        cases h3; rfl

theorem new_shifted (d : Vec K) (m : CostMap K) (c : Vec K) (r : K) :
    new (m.shifted d) (c + d) r = (new m c r).map (shifted d) := by
  unfold new
  simp only [show (m.shifted d).resolution = m.resolution from rfl, getIndex_shifted, show (m.shifted d).size = m.size from rfl]
  split
  · rfl
  split
  · rfl
  · rw [← generateRing_shifted]; rfl

end SpiralIter
end CostMapModel

import Verif.Model.Iterators

/-!
# Copies of iterators

Iterator objects as program variables. CostMapIterator, SubmapIterator, LineIterator and SpiralIterator hold
their state by value: the copy constructors (compiler generated, or cost_map_iterator.cpp 24-31,
submap_iterator.cpp 40-49) and assignments (cost_map_iterator.cpp 33-41, submap_iterator.cpp 51-61,
line_iterator.cpp 31-49, spiral_iterator.cpp 34-48) copy every member. CircleIterator, EllipseIterator and
PolygonIterator hold a `std::shared_ptr<SubmapIterator>` (circle_iterator.hpp 90, ellipse_iterator.hpp 93,
polygon_iterator.hpp 81), which copying shares.
-/

namespace CostMapModel

/-- A statement of a program that uses iterator variables (numbered): construct one, copy one into another
(copy construction or assignment), increment one. -/
inductive IterStmt (σ : Type) where
  | construct (v : Nat) (it : σ)
  | copy (dst src : Nat)
  | incr (v : Nat)

namespace IterStmt

/-- The variable a statement writes. -/
def target {σ : Type} : IterStmt σ → Nat
  | construct v _ => v
  | copy d _ => d
  | incr v => v

/-- Whether a statement makes a copy. -/
def isCopy {σ : Type} : IterStmt σ → Bool
  | copy _ _ => true
  | _ => false

end IterStmt

/-! ## Iterators held by value -/

/-- The iterator variables; `none` for one not constructed yet. -/
abbrev ValueVars (σ : Type) := Nat → Option σ

/-- One statement on iterators held by value. Using a variable before its construction is undefined. -/
def valueStep {σ β : Type} (I : IterOps σ β) (e : ValueVars σ) : IterStmt σ → Res (ValueVars σ)
  | .construct v it => .ok fun x => if x = v then some it else e x
  | .copy d s => match e s with
    | none => .ub
    | some it => .ok fun x => if x = d then some it else e x
  | .incr v => match e v with
    | none => .ub
    | some it => (I.next it).bind fun it' => .ok fun x => if x = v then some it' else e x

/-- A program on iterators held by value. -/
def valueRun {σ β : Type} (I : IterOps σ β) : List (IterStmt σ) → ValueVars σ → Res (ValueVars σ)
  | [], e => .ok e
  | s :: ss, e => (valueStep I e s).bind (valueRun I ss)

/-! ## Circle, ellipse and polygon iterators -/

/-- The iterator variables and the heap their internal iterators live in. A variable holds the members of the object
and the address of its internal iterator; the `internal` field of the members is not used. -/
structure SharedVars (K : Type) where
  vars : Nat → Option (ShapeIter K × Nat)
  heap : Nat → SubmapIter
  fresh : Nat

namespace SharedVars
variable {K : Type} [Field K] [LinearOrder K] [FloorRing K]

/-- The iterator a variable denotes: its members with the internal iterator it points to. -/
def load (e : SharedVars K) (v : Nat) : Option (ShapeIter K) :=
  (e.vars v).map fun o => { o.1 with internal := e.heap o.2 }

/-- One statement. The constructors allocate the internal iterator (circle_iterator.cpp 29, ellipse_iterator.cpp 32,
polygon_iterator.cpp 27); copying copies the pointer (circle_iterator.cpp 38, ellipse_iterator.cpp 41,
polygon_iterator.cpp 34 and the generated copy constructors); incrementing goes through the pointer
(circle_iterator.cpp 57-67, ellipse_iterator.cpp 60-70, polygon_iterator.cpp 53-63). -/
def step (e : SharedVars K) : IterStmt (ShapeIter K) → Res (SharedVars K)
  | .construct v it => .ok
      { vars := fun x => if x = v then some (it, e.fresh) else e.vars x
        heap := fun a => if a = e.fresh then it.internal else e.heap a
        fresh := e.fresh + 1 }
  | .copy d s => match e.vars s with
    | none => .ub
    | some o => .ok { e with vars := fun x => if x = d then some o else e.vars x }
  | .incr v => match e.vars v with
    | none => .ub
    | some o => (ShapeIter.next { o.1 with internal := e.heap o.2 }).bind fun it' =>
        .ok { e with heap := fun a => if a = o.2 then it'.internal else e.heap a }

/-- A program. -/
def run : List (IterStmt (ShapeIter K)) → SharedVars K → Res (SharedVars K)
  | [], e => .ok e
  | s :: ss, e => (e.step s).bind (run ss)

/-- No variables yet. -/
def start : SharedVars K := ⟨fun _ => none, fun _ => ⟨0, 0, 0, 0, 0, 0, true⟩, 0⟩

/-- `*v` (circle_iterator.cpp 52-55, ellipse_iterator.cpp 55-58, polygon_iterator.cpp 48-51). -/
def deref (e : SharedVars K) (v : Nat) : Res Idx :=
  match e.load v with
  | none => .ub
  | some it => .ok it.internal.index

/-- `a != b` (circle_iterator.cpp 47-50, ellipse_iterator.cpp 50-53, polygon_iterator.cpp 43-46): compares the
pointers. -/
def ne (e : SharedVars K) (a b : Nat) : Res Bool :=
  match e.vars a, e.vars b with
  | some x, some y => .ok (decide (x.2 ≠ y.2))
  | _, _ => .ub

end SharedVars
end CostMapModel

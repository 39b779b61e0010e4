import Verif.Spec.Geometry

/-! # Specification vocabulary: cells of a buffer region, histories of moves and writes -/

namespace CostMapModel

/-- Buffer cell `i` belongs to the region `r`. -/
def InRegion (r : BufferRegion) (i : Idx) : Prop :=
  (r.startIndex.x ≤ i.x ∧ i.x < r.startIndex.x + r.size.x) ∧
  (r.startIndex.y ≤ i.y ∧ i.y < r.startIndex.y + r.size.y)

instance (r : BufferRegion) (i : Idx) : Decidable (InRegion r i) := by unfold InRegion; infer_instance

end CostMapModel

namespace CostMapModel
namespace CostMap
variable {K : Type} [Field K] [LinearOrder K] [FloorRing K]

/-- The square of the world grid that `p` lies in, counted from the upper corner of the map `m0`: an unbounded
grid of squares of side `resolution`. -/
def worldCell (m0 : CostMap K) (p : Vec K) : Idx :=
  ⟨⌊(m0.position.x + m0.length.x / 2 - p.x) / m0.resolution⌋,
   ⌊(m0.position.y + m0.length.y / 2 - p.y) / m0.resolution⌋⟩

/-- One call in a history: a move, or a write by position. -/
inductive Event (K : Type) where
  | moveTo (p : Vec K)
  | write (l : String) (p : Vec K) (v : Cost)

/-- `p` lies in the rectangle of the size of `m0` around `c`. -/
def CoveredAt (m0 : CostMap K) (c p : Vec K) : Prop :=
  (c.x - m0.length.x / 2 < p.x ∧ p.x ≤ c.x + m0.length.x / 2) ∧
  (c.y - m0.length.y / 2 < p.y ∧ p.y ≤ c.y + m0.length.y / 2)

instance (m0 : CostMap K) (c p : Vec K) : Decidable (CoveredAt m0 c p) := by unfold CoveredAt; infer_instance

/-- What a read of layer `l` at `p` has to return, given the initial map and the history, most recent event first;
each event comes with the centre of the map after it. The last value written to the world cell since
that cell last left the map; if it left the map since, or was never written and was not in the initial
map, `NO_INFORMATION`. -/
def expected (m0 : CostMap K) (l : String) (p : Vec K) : List (Event K × Vec K) → Cost
  | [] => if CoveredAt m0 m0.position p then
      (match m0.atPosition l p with | .ok v => v | _ => NO_INFORMATION) else NO_INFORMATION
  | (e, c) :: older =>
    if CoveredAt m0 c p then
      match e with
      | .moveTo _ => expected m0 l p older
      | .write l' q v =>
        if l' = l ∧ CoveredAt m0 c q ∧ m0.worldCell q = m0.worldCell p then v else expected m0 l p older
    else NO_INFORMATION

/-- Perform one event; `bnd` is the index bounding function `move` uses. -/
def Event.act (bnd : Int → Int → Int) : Event K → Act (CostMap K) Unit
  | .moveTo p => Act.bind (moveWith bnd p) fun _ => Act.pure ()
  | .write l p v => setAtPosition l p v

/-- Perform a history (most recent event first), going on after exceptions, and record the centre of the map
after each event. -/
def runEvents (bnd : Int → Int → Int) (m0 : CostMap K) : List (Event K) → CostMap K × List (Event K × Vec K)
  | [] => (m0, [])
  | e :: es =>
    let (m, tr) := runEvents bnd m0 es
    let m' := (e.act bnd m).2
    (m', (e, m'.position) :: tr)

/-- No event of a history ends in undefined behaviour or a failed assertion. -/
def RunsSafely (bnd : Int → Int → Int) (m0 : CostMap K) : List (Event K) → Prop
  | [] => True
  | e :: es => RunsSafely bnd m0 es ∧
    ((e.act bnd (runEvents bnd m0 es).1).1 = .ok () ∨
      (e.act bnd (runEvents bnd m0 es).1).1 = .thrown .outOfRange)

end CostMap
end CostMapModel

import Verif.Lemmas.MachineHistory
import Verif.Props.AnyBundle

/-!
# Histories on the machine: C101

Chains of calls with `double`s that are rounded and `int`s that overflow: what C71 and C72 say in exact arithmetic, for the
program that runs.
-/

set_option linter.unusedSectionVars false

namespace CostMapModel
open CostMap

section
variable {K : Type} [Field K] [LinearOrder K] [IsStrictOrderedRing K] [FloorRing K]

/-- C101. Whatever calls that fit the world are made, and whether they return or throw: the map is coherent, its length is its
number of cells times its resolution (rounded), the start of its buffer is one of its cells, it does not leave the world, and its
cells do not become smaller than those of the world. -/
theorem C101_world {w : World K} {F : Fmt K} {rf : K → K} (hrd : DoublePrecision F.rd) (hF : IntsExact F.rd)
    (htop : 2 ^ 31 ≤ F.top) {m : CostMap K} (h : HeldI w F rf m) :
    m.Coherent ∧ m.GeoRd F.rd ∧ m.InArena w.size ∧ w.cell ≤ m.resolution := by
  obtain ⟨h1, h2, h3, h4⟩ := held_inWorld hrd hF htop h
  exact ⟨h1, h2, h3, h4⟩

/-- C101. The next call has a defined outcome: no `int` overflows and no element outside of an array is accessed. -/
theorem C101_defined_partial {w : World K} {F : Fmt K} {rf : K → K} (hrd : DoublePrecision F.rd) (hF : IntsExact F.rd)
    (htop : 2 ^ 31 ≤ F.top) {m : CostMap K} (h : HeldI w F rf m) (c : MachineCall K) (hc : w.Fits F rf m c) :
    (c.run F rf m).1.Defined :=
  (call_inWorld hrd hF htop (held_inWorld hrd hF htop h) c hc).1

/-- C101. Every cell has a position, which lies in the map and leads back to the cell. -/
theorem C101_round_trip {w : World K} {F : Fmt K} {rf : K → K} (hrd : DoublePrecision F.rd) (hF : IntsExact F.rd)
    (htop : 2 ^ 31 ≤ F.top) {m : CostMap K} (h : HeldI w F rf m) {i : Idx} (hi : i.In m.size) :
    ∃ p, m.getPositionI F.rd i = some (some p) ∧ m.isInsideRd F.rd p = true ∧ m.getIndexI F.rd p = some (i, true) := by
  have hm := held_inWorld hrd hF htop h
  exact C79_round_trip hrd hm.geo hm.tame hm.small hi

/-- C101. The map's iterator visits every cell once, in the order of the grid. -/
theorem C101_iterate {w : World K} {F : Fmt K} {rf : K → K} (hrd : DoublePrecision F.rd) (hF : IntsExact F.rd)
    (htop : 2 ^ 31 ≤ F.top) {m : CostMap K} (h : HeldI w F rf m) :
    ∃ it xs, CostMapIter.newI m = some it ∧ Visits CostMapIter.opsI it xs ∧ Enumerates xs (fun i => i.In m.size) ∧
      xs.map m.logical = rowMajor m.size := by
  have hm := held_inWorld hrd hF htop h
  exact C79_iterate hm.geo.start hm.small

/-- C101. A position of the world outside of the map is refused; one inside it, clear of its lower edges by the tolerance, is
given the cost of a cell around it. -/
theorem C101_lookup_partial {w : World K} {F : Fmt K} {rf : K → K} (hrd : DoublePrecision F.rd) (hF : IntsExact F.rd)
    (htop : 2 ^ 31 ≤ F.top) {m : CostMap K} (h : HeldI w F rf m) {l : String} (hl : m.exists l = true) {p : Vec K}
    (hp : PointIn w.size p) :
    (m.isInsideRd F.rd p = false → m.atPositionI F.rd l p = .thrown .outOfRange) ∧
    (m.isInsideRd F.rd p = true → m.position.x - m.length.x / 2 + m.tolX ≤ p.x →
      m.position.y - m.length.y / 2 + m.tolY ≤ p.y →
      ∃ i c v, i.In m.size ∧ m.at l i = .ok v ∧ m.atPositionI F.rd l p = .ok v ∧ m.getPositionI F.rd i = some (some c) ∧
        |p.x - c.x| ≤ m.resolution / 2 + m.tolX ∧ |p.y - c.y| ≤ m.resolution / 2 + m.tolY) := by
  have hm := held_inWorld hrd hF htop h
  have e := (C79_access hrd hm.geo hm.tame hm.small (hm.near hp) l 0).1
  constructor
  · intro h0
    rw [e]
    unfold atPositionRd
    rw [show m.getIndexRd F.rd p = ((m.getIndexRd F.rd p).1, m.isInsideRd F.rd p) from rfl, h0]
    rfl
  · intro h1 hx hy
    obtain ⟨i, c, hi, hin, hc, dx, dy⟩ := C74_containing_cell_partial hrd hm.geo hm.tame h1 hx hy
    obtain ⟨v, hv⟩ := hm.coherent.at_ok hl hin
    refine ⟨i, c, v, hin, hv, ?_, ?_, dx, dy⟩
    · rw [e]
      unfold atPositionRd
      rw [hi]
      exact hv
    · rw [C79_getPosition F.rd hm.geo.start hm.small, hc]

end

/-! ## A case, and the lower edges -/

namespace Demo

/-- A hundred metres, with cells of at least a tenth. -/
def hundred : World ℚ where
  size := 100
  cell := toDouble (1 / 10)
  cell_pos := by decide +kernel
  cells := by decide +kernel

/-- The map of C74 before its layer is added. -/
def tenthsEmpty : CostMap ℚ :=
  (setGeometryRd toDouble ⟨toDouble (7 / 10), toDouble (7 / 10)⟩ (toDouble (1 / 10)) ⟨toDouble (1 / 10), 0⟩ (CostMap.new [])).2

theorem hundred_geometry :
    hundred.Geometry ⟨toDouble (7 / 10), toDouble (7 / 10)⟩ (toDouble (1 / 10)) ⟨toDouble (1 / 10), 0⟩ :=
  ⟨by decide +kernel, by decide +kernel, by decide +kernel, by decide +kernel, by decide +kernel, by unfold PointIn; decide +kernel⟩

theorem tenthsEmpty_held : HeldI hundred binary64 toFloat tenthsEmpty := by
  refine .new (ls := []) (.setGeometry ⟨toDouble (7 / 10), toDouble (7 / 10)⟩ (toDouble (1 / 10)) ⟨toDouble (1 / 10), 0⟩)
    (by simp) trivial hundred_geometry ?_
  obtain ⟨m', e, -⟩ := setGeometryI_fits toDouble_precision hundred_geometry (m := CostMap.new []) (new_coherent (by simp))
  have e2 := C79_setGeometry toDouble_precision (CostMap.new []) (len := ⟨toDouble (7 / 10), toDouble (7 / 10)⟩)
    (r := toDouble (1 / 10)) (by decide +kernel) (by decide +kernel) ⟨toDouble (1 / 10), 0⟩
  show setGeometryI toDouble _ _ _ _ = _
  rw [e, Prod.mk.injEq]
  refine ⟨rfl, ?_⟩
  unfold tenthsEmpty
  rw [← e2, e]

/-- The map of C74 is one a program can hold. -/
theorem tenths_held : HeldI hundred binary64 toFloat tenths := by
  refine .returned (.plain (.add "a" (Mat.ofFn 7 7 fun i j => UInt8.ofNat (10 * i.toNat + j.toNat)))) tenthsEmpty_held trivial ?_
  have h : ∀ r : Res Unit × CostMap ℚ, r.1 = .ok () → r = (.ok (), r.2) := by rintro ⟨r, m⟩ h; rw [← h]
  exact h _ (by decide +kernel)

end Demo

namespace Demo

theorem top64 : (2 : ℚ) ^ 31 ≤ binary64.top := by unfold binary64; decide +kernel

/-- Where the map is moved to. -/
def target : Vec ℚ := ⟨toDouble (3 / 10), toDouble (-1 / 2)⟩

theorem target_fits : hundred.Fits binary64 toFloat tenths (.move target) :=
  ⟨by unfold PointIn target; decide +kernel, by decide +kernel⟩

end Demo

-- The hypotheses are met: the map of C74, which is then moved, iterated over and read.
example : ∃ r m, moveI toDouble Demo.target Demo.tenths = (.ok r, m) ∧ HeldI Demo.hundred binary64 toFloat m := by
  have hm := held_inWorld (F := binary64) toDouble_precision toDouble_ints Demo.top64 Demo.tenths_held
  obtain ⟨r, m', e, -⟩ := moveI_safe toDouble_precision hm Demo.target_fits.1 Demo.target_fits.2
  refine ⟨r, m', e, .returned (.move Demo.target) Demo.tenths_held Demo.target_fits ?_⟩
  show Call.discard (moveI toDouble Demo.target) Demo.tenths = _
  unfold Call.discard Act.bind
  rw [show moveI toDouble Demo.target Demo.tenths = _ from e]
  rfl

example : (MachineCall.run binary64 toFloat (.move Demo.target) Demo.tenths).1.Defined :=
  C101_defined_partial (F := binary64) toDouble_precision toDouble_ints Demo.top64 Demo.tenths_held _ Demo.target_fits

example : ∃ p, Demo.tenths.getPositionI toDouble ⟨6, 2⟩ = some (some p) ∧ Demo.tenths.isInsideRd toDouble p = true ∧
    Demo.tenths.getIndexI toDouble p = some (⟨6, 2⟩, true) :=
  C101_round_trip (F := binary64) toDouble_precision toDouble_ints Demo.top64 Demo.tenths_held (by decide +kernel)

example : ∃ i c v, i.In Demo.tenths.size ∧ Demo.tenths.at "a" i = .ok v ∧
    Demo.tenths.atPositionI toDouble "a" ⟨toDouble (1 / 5), toDouble (1 / 4)⟩ = .ok v ∧
    Demo.tenths.getPositionI toDouble i = some (some c) := by
  obtain ⟨i, c, v, h1, h2, h3, h4, -⟩ := (C101_lookup_partial (F := binary64) toDouble_precision toDouble_ints Demo.top64
    Demo.tenths_held (l := "a") (by decide +kernel) (p := ⟨toDouble (1 / 5), toDouble (1 / 4)⟩)
    (by unfold PointIn; decide +kernel)).2 (by decide +kernel) (by decide +kernel) (by decide +kernel)
  exact ⟨i, c, v, h1, h2, h3, h4⟩

/-- D54. The outcome is not defined for every position of the world: a program can hold the map of D30, which has 7 x 7 cells of
0.1 around (0.1, 0), and writing to it at (-0.25, 0), on its lower edge, is undefined behaviour. -/
theorem C101_false_lower_edge :
    HeldI Demo.hundred binary64 toFloat Demo.tenths ∧ PointIn Demo.hundred.size ⟨-1 / 4, 0⟩ ∧
    (MachineCall.run binary64 toFloat (.setAtPosition "a" ⟨-1 / 4, 0⟩ 5) Demo.tenths).1 = .ub ∧
    Demo.tenths.atPositionI toDouble "a" ⟨-1 / 4, 0⟩ = .ub :=
  ⟨Demo.tenths_held, by unfold PointIn; decide +kernel, by decide +kernel, by decide +kernel⟩

end CostMapModel

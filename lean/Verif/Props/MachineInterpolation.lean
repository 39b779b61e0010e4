import Verif.Model.MachineInterpolation
import Verif.Props.Machine
import Verif.Props.RoundedInterpolation

/-!
# Interpolated access with 32-bit integers: C79
-/

set_option linter.unusedSectionVars false

namespace CostMapModel
open CostMap
variable {K : Type} [Field K] [LinearOrder K] [IsStrictOrderedRing K] [FloorRing K]

/-- The neighbour of a cell of the map is an `int`. -/
theorem neighbourI {m : CostMap K} (hm : m.Small) {i d : Idx} (hi : i.In m.size) (hx : |d.x| ≤ 1) (hy : |d.y| ≤ 1) :
    I32.both I32.add i d = some (i + d) := by
  obtain ⟨i1, i2, i3, i4⟩ := hi
  have := hm.x; have := hm.y
  rw [abs_le] at hx hy
  exact both_eq (i32_eq (by omega) (by omega)) (i32_eq (by omega) (by omega))

/-- C79. Access with interpolation, at a position in or near the map, does not overflow: it is that of C92, with every solver. -/
theorem C79_interpolation {rd : K → K} (hrd : DoublePrecision rd) (rf : K → K) (solve : Solver K) {m : CostMap K}
    (h : m.GeoRd rd) (ht : m.Tame) (hm : m.Small) {p : Vec K} (hp : m.NearBy p) (l : String) (k : Interp) :
    m.atPositionInterpI rd rf solve l p k = m.atPositionInterpRd rd rf solve l p k := by
  have ea := (C79_access hrd h ht hm hp l 0).1
  have el : m.linearInterpolatedI rd rf solve l p = m.linearInterpolatedRd rd rf solve l p := by
    unfold linearInterpolatedI linearInterpolatedRd
    rw [C79_getIndex hrd h ht hm hp]
    simp only [C79_getPosition rd h.start hm, Res.ofOption_some, Res.bind_ok]
    by_cases hi : (m.getIndexRd rd p).1.In m.size
    · cases m.getPositionRd rd (m.getIndexRd rd p).1 with
      | none => rfl
      | some p0 =>
        dsimp only
        rw [neighbourI hm hi (by split <;> decide) (by split <;> decide),
          neighbourI hm hi (by split <;> decide) (by split <;> decide)]
        simp only [Res.ofOption_some, Res.bind_ok]
        rw [apply_ite ((m.getIndexRd rd p).1 + ·), apply_ite ((m.getIndexRd rd p).1 + ·)]
        cases m.getPositionRd rd (if p0.x ≤ p.x then (m.getIndexRd rd p).1 + ⟨-1, 0⟩ else (m.getIndexRd rd p).1 + ⟨1, 0⟩) with
        | none => rfl
        | some p1 =>
          dsimp only
          cases m.getPositionRd rd
              (if p0.y ≤ p.y then (m.getIndexRd rd p).1 + ⟨0, -1⟩ else (m.getIndexRd rd p).1 + ⟨0, 1⟩) with
          | none => rfl
          | some p2 =>
            dsimp only
            split
            · rename_i e; rw [e]
            · rename_i e; rw [e]
    · have : m.getPositionRd rd (m.getIndexRd rd p).1 = none := by
        unfold getPositionRd positionFromIndexRd
        rw [if_neg (fun e => hi (inRange_iff.mp e))]
      rw [this]
  cases k with
  | linear =>
    unfold atPositionInterpI atPositionInterpRd
    rw [el, ea]
    rfl
  | nearest => exact ea
  | other => rfl

/-- Interpolation near a centre of a small map, with any solver. -/
example (solve : Solver ℚ) : Demo.field.atPositionInterpI toDouble toFloat solve "a" ⟨Demo.fieldX 1, Demo.fieldY 1⟩ .linear =
    Demo.field.atPositionInterpRd toDouble toFloat solve "a" ⟨Demo.fieldX 1, Demo.fieldY 1⟩ .linear :=
  C79_interpolation toDouble_precision toFloat solve Demo.field_geo ⟨by decide +kernel, by decide +kernel⟩
    ⟨by decide +kernel, by decide +kernel⟩ ⟨by decide +kernel, by decide +kernel⟩ "a" .linear

end CostMapModel

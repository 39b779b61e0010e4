import Verif.Lemmas.MachineCostmap2D
import Verif.Props.RoundedCostmap2D

/-!
# ROS costmaps on the machine: C107

What C96 says about reading ROS costmaps with rounding, for the program that runs: the conversions from `double` to `int` are defined
when the robot is not too far away. That the maps that result are among those of C101 is in `Props/CostmapHistory.lean`.
-/

set_option linter.unusedSectionVars false

namespace CostMapModel
open CostMap

section
variable {K : Type} [Field K] [LinearOrder K] [IsStrictOrderedRing K] [FloorRing K]

/-- C107. Reading a whole costmap of up to `2^29` cells along each axis does on the machine what it does without bounds. -/
theorem C107_whole_same {rd : K → K} (hrd : DoublePrecision rd) {c : Costmap2DROS K} (hr : 0 < c.costmap.resolution)
    (hx : c.costmap.sizeX ≤ 2 ^ 29) (hy : c.costmap.sizeY ≤ 2 ^ 29) (l : String) (m : CostMap K) :
    fromCostmap2DROSI rd c l m = fromCostmap2DROSRd rd c l m := by
  have key : ∀ {n : Nat}, n ≤ 2 ^ 29 → rd (n * c.costmap.resolution) ≤ 2 ^ 30 * c.costmap.resolution := by
    intro n h
    have h' : (n : K) ≤ 2 ^ 29 := by exact_mod_cast h
    have e := hrd.le (n * c.costmap.resolution)
    rw [abs_of_nonneg (mul_nonneg (Nat.cast_nonneg _) hr.le)] at e
    have := mul_le_mul_of_nonneg_right h' hr.le
    linarith [le_abs_self (rd (n * c.costmap.resolution))]
  unfold fromCostmap2DROSI fromCostmap2DROSRd initFromCostmap2DI initFromCostmap2DRd
  unfold Act.bind
  dsimp only
  rw [C79_setGeometry hrd m (key hx) (key hy)]

/-- C107. Reading a window around the robot does on the machine what it does without bounds, as long as the robot is within `2^26`
cells of the costmap's corner, the window has no more cells than that, and the corner is within `2^44` cells of the frame's origin. -/
theorem C107_window_same_partial {rd : K → K} (hrd : DoublePrecision rd) {c : Costmap2DROS K} (hr : 0 < c.costmap.resolution)
    (ho : PointIn (2 ^ 44 * c.costmap.resolution) c.costmap.origin)
    (hp : ∀ rb, c.robot = some rb → PointIn (2 ^ 26 * c.costmap.resolution) ⟨rb.x - c.costmap.origin.x, rb.y - c.costmap.origin.y⟩)
    {geometry : Vec K} (hg : PointIn (2 ^ 26 * c.costmap.resolution) geometry) (l : String) (m : CostMap K) :
    fromCostmap2DROSAtRobotPoseI rd c geometry l m = fromCostmap2DROSAtRobotPoseRd rd c geometry l m := by
  have big : ∀ {x : K}, |x| ≤ 2 ^ 26 * c.costmap.resolution → |x| ≤ 2 ^ 29 * c.costmap.resolution := fun h => by linarith
  have big' : ∀ {x : K}, |x| ≤ 2 ^ 26 * c.costmap.resolution → x ≤ 2 ^ 30 * c.costmap.resolution := fun {x} h => by
    linarith [le_abs_self x]
  unfold fromCostmap2DROSAtRobotPoseI fromCostmap2DROSAtRobotPoseRd
  cases hrb : c.robot with
  | none =>
    have e1 : initAtRobotPoseI rd c geometry m = (.ok false, m) := by unfold initAtRobotPoseI; rw [hrb]; rfl
    have e2 : initAtRobotPoseRd rd c geometry m = (.ok false, m) := by unfold initAtRobotPoseRd; rw [hrb]; rfl
    rw [Act.bind_ok e1, Act.bind_ok e2]
    rfl
  | some rb =>
    have hp := hp rb hrb
    have e0 : initAtRobotPoseI rd c geometry m = initAtRobotPoseRd rd c geometry m := by
      unfold initAtRobotPoseI initAtRobotPoseRd
      rw [hrb]
      dsimp only
      rw [windowCentreI_eq hrd hr (big hg.1), windowCentreI_eq hrd hr (big hg.2)]
      dsimp only [Res.ofOption]
      unfold Act.bind Act.modify Act.lift
      dsimp only
      rw [C79_setGeometry hrd _ (big' hg.1) (big' hg.2)]
    unfold Act.bind
    rw [e0]
    rcases e1 : initAtRobotPoseRd rd c geometry m with ⟨r, m1⟩
    cases r with
    | ok b =>
      cases b with
      | false => rfl
      | true =>
        dsimp only
        rw [if_pos rfl, if_pos rfl]
        -- what the geometry is now
        unfold initAtRobotPoseRd at e1
        rw [hrb] at e1
        dsimp only at e1
        rw [Act.bind_ok (show Act.modify _ m = (.ok (), _) from rfl)] at e1
        unfold Act.bind at e1
        rcases e2 : setGeometryRd rd geometry c.costmap.resolution
          ⟨windowCentreRd rd geometry.x rb.x c.costmap.origin.x c.costmap.resolution,
            windowCentreRd rd geometry.y rb.y c.costmap.origin.y c.costmap.resolution⟩
          ((m.setFrameId c.globalFrame).setTimestamp c.now) with ⟨r2, m2⟩
        rw [e2] at e1
        cases r2 <;> simp only [Act.pure, Prod.mk.injEq, reduceCtorEq, false_and] at e1
        obtain ⟨-, rfl⟩ := e1
        obtain ⟨gx, gy, p1, r1, l1⟩ := setGeometryRd_fields e2
        have sx := stored_length hrd hr gx ((le_abs_self _).trans hg.1)
        have sy := stored_length hrd hr gy ((le_abs_self _).trans hg.2)
        have cx := window_corner hrd (len := geometry.x) hr ho.1 hp.1 sx
        have cy := window_corner hrd (len := geometry.y) hr ho.2 hp.2 sy
        have e3 : addAtRobotPoseI rd c l m2 = addAtRobotPoseRd rd c l m2 := by
          have ew : c.costmap.windowI rd ⟨rd (m2.position.x - rd (m2.length.x / 2)), rd (m2.position.y - rd (m2.length.y / 2))⟩
              m2.length = c.costmap.windowRd rd ⟨rd (m2.position.x - rd (m2.length.x / 2)),
                rd (m2.position.y - rd (m2.length.y / 2))⟩ m2.length := by
            rw [p1, l1]
            exact windowI_eq (worldToMapI_eq hrd hr (by exact cx.1) (by exact cy.1))
              (worldToMapI_eq hrd hr (by exact cx.2) (by exact cy.2))
          unfold addAtRobotPoseI addAtRobotPoseRd
          rw [ew]
          rfl
        rw [e3]
    | _ => rfl

end
-- A costmap of 10 by 3 cells of a tenth, and a window of it.
example : fromCostmap2DROSI toDouble (Demo.tenthRos (9 / 20)) "a" (CostMap.new []) =
    fromCostmap2DROSRd toDouble (Demo.tenthRos (9 / 20)) "a" (CostMap.new []) :=
  C107_whole_same toDouble_precision (by decide +kernel) (by decide) (by decide) "a" _

example : fromCostmap2DROSAtRobotPoseI toDouble (Demo.tenthRos (9 / 20)) ⟨toDouble (1 / 2), toDouble (1 / 10)⟩ "a" (CostMap.new []) =
    fromCostmap2DROSAtRobotPoseRd toDouble (Demo.tenthRos (9 / 20)) ⟨toDouble (1 / 2), toDouble (1 / 10)⟩ "a" (CostMap.new []) :=
  C107_window_same_partial toDouble_precision (by decide +kernel) (by unfold PointIn; decide +kernel)
    (by intro rb h; cases h; unfold PointIn; decide +kernel) (by unfold PointIn; decide +kernel) "a" _

end CostMapModel

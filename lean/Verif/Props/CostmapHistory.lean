import Verif.Props.MachineHistory
import Verif.Props.MachineCostmap2D

/-!
# Maps made from ROS costmaps, on the machine: C107
-/

set_option linter.unusedSectionVars false

namespace CostMapModel
open CostMap

section
variable {K : Type} [Field K] [LinearOrder K] [IsStrictOrderedRing K] [FloorRing K]

/-- C107. A ROS costmap that fits the world is read whole: the call returns true, whatever the map was before; the map has the frame,
the resolution and the size of the costmap and lies in the world; and the machine finds at a position clear of the borders of a cell
of the costmap, by the tolerance, the cost of that cell. Without the tolerance this is false, see `C96_false_whole`. -/
theorem C107_whole_partial {w : World K} {rd : K → K} (hrd : DoublePrecision rd) {c : Costmap2DROS K} (h : w.Costmap c.costmap)
    {m : CostMap K} (hm : m.Coherent) (l : String) :
    ∃ m', fromCostmap2DROSI rd c l m = (.ok true, m') ∧ m'.Coherent ∧ m'.GeoRd rd ∧ m'.InArena w.size ∧
      m'.frameId = c.globalFrame ∧ m'.resolution = c.costmap.resolution ∧ m'.size = ⟨c.costmap.sizeX, c.costmap.sizeY⟩ ∧
      m'.layers = (if m.exists l then m.layers else m.layers ++ [l]) ∧
      ∀ (col row : Nat) (p : Vec K), col < c.costmap.sizeX → row < c.costmap.sizeY →
        |p.x - (c.costmap.cellCentre col row).x| ≤
          c.costmap.resolution / 2 - Costmap2D.axisTol c.costmap.sizeX c.costmap.origin.x c.costmap.resolution →
        |p.y - (c.costmap.cellCentre col row).y| ≤
          c.costmap.resolution / 2 - Costmap2D.axisTol c.costmap.sizeY c.costmap.origin.y c.costmap.resolution →
        ∃ v, c.costmap.cell col row = some v ∧ m'.atPositionI rd l p = .ok v := by
  have hr := h.ok.res
  have hB : w.size ≤ 2 ^ 23 * c.costmap.resolution := w.cells.trans (by have := h.cell; nlinarith)
  have hx := h.high_x; have hy := h.high_y; have hp := h.corner
  have n0 : ∀ n : Nat, (0 : K) ≤ n := fun n => Nat.cast_nonneg n
  have cells : ∀ {n : Nat}, ((n : K) + 3) * c.costmap.resolution ≤ w.size → n ≤ 2 ^ 29 := by
    intro n h
    have : ((n : K) + 3) ≤ 2 ^ 23 := le_of_mul_le_mul_right (h.trans hB) hr
    have : (n : K) ≤ 2 ^ 29 := by linarith
    exact_mod_cast this
  have nx := mul_nonneg (n0 c.costmap.sizeX) hr.le
  have ny := mul_nonneg (n0 c.costmap.sizeY) hr.le
  obtain ⟨m1, e1, h1⟩ := fromCostmap2DROSI_safe hrd h hm l
  obtain ⟨m', e, hc', g, -, f1, -, r1, z1, -, p1, p2, ly, hv⟩ := C96_whole_partial hrd h.ok
    ⟨by linarith [hp.1], by linarith [hp.2]⟩ hm l
  rw [C107_whole_same hrd hr (cells hx) (cells hy)] at e1 ⊢
  rw [e] at e1
  obtain rfl : m' = m1 := (Prod.mk.inj e1).2
  refine ⟨m', e, hc', g, h1.arena, f1, r1, z1, ly, fun col row p hcol hrow hpx hpy => ?_⟩
  rw [r1] at hv p1 p2
  obtain ⟨v, v1, -, v3⟩ := hv col row p hcol hrow hpx hpy
  refine ⟨v, v1, ?_⟩
  have tol : ∀ (n : Nat) (o : K), 0 ≤ Costmap2D.axisTol n o c.costmap.resolution := fun n o => by
    unfold Costmap2D.axisTol
    exact div_nonneg (add_nonneg (abs_nonneg _) (mul_nonneg (by linarith [n0 n]) hr.le)) (by positivity)
  have near : ∀ {n k : Nat} {q o pos : K}, k < n → ((n : K) + 3) * c.costmap.resolution ≤ w.size →
      |q - (o + ((k : K) + 1 / 2) * c.costmap.resolution)| ≤
        c.costmap.resolution / 2 - Costmap2D.axisTol n o c.costmap.resolution →
      |pos - (o + n * c.costmap.resolution / 2)| ≤ Costmap2D.axisTol n o c.costmap.resolution →
      |q - pos| ≤ 2 ^ 29 * c.costmap.resolution := by
    intro n k q o pos hk hn h1 h2
    have t := tol n o
    have k1 : (k : K) + 1 ≤ n := by exact_mod_cast hk
    have k2 := mul_le_mul_of_nonneg_right k1 hr.le
    have k3 := mul_nonneg (n0 k) hr.le
    obtain ⟨a1, a2⟩ := abs_le.mp h1
    obtain ⟨b1, b2⟩ := abs_le.mp h2
    exact abs_le.mpr ⟨by linarith, by linarith⟩
  rw [(C79_access hrd g h1.tame h1.small ⟨r1 ▸ near hcol hx hpx p1, r1 ▸ near hrow hy hpy p2⟩ l 0).1]
  exact v3

/-- C107. A window around a robot in the world: the call has a defined outcome and does not throw; when the robot's position is not known
it returns false and leaves the map as it was; otherwise the map lies in the world, with its centre half a cell from the robot up to
rounding. -/
theorem C107_window {w : World K} {rd : K → K} (hrd : DoublePrecision rd) {c : Costmap2DROS K} (h : w.Costmap c.costmap)
    {geometry : Vec K} (hg : ∀ p, c.robot = some p → w.Geometry geometry c.costmap.resolution p) {m : CostMap K} (hm : m.Coherent)
    (l : String) :
    ∃ b m', fromCostmap2DROSAtRobotPoseI rd c geometry l m = (.ok b, m') ∧
      (c.robot = none → b = false ∧ m' = m) ∧
      ∀ p, c.robot = some p → m'.Coherent ∧ m'.GeoRd rd ∧ m'.InArena w.size ∧ m'.resolution = c.costmap.resolution ∧
        m'.frameId = c.globalFrame ∧ m'.timestamp = c.now ∧
        |m'.position.x - p.x| ≤ m'.resolution / 2 + (|p.x| + |c.costmap.origin.x| + m'.resolution) / 2 ^ 48 ∧
        |m'.position.y - p.y| ≤ m'.resolution / 2 + (|p.y| + |c.costmap.origin.y| + m'.resolution) / 2 ^ 48 := by
  cases hrb : c.robot with
  | none =>
    refine ⟨false, m, ?_, fun _ => ⟨rfl, rfl⟩, fun p hp => by cases hp⟩
    unfold fromCostmap2DROSAtRobotPoseI initAtRobotPoseI
    rw [hrb]
    rfl
  | some rb =>
    obtain ⟨b1, m1, e1, h1⟩ := fromCostmapAtRobotI_safe hrd h hg hm l
    have h1 : InWorld w rd m1 := h1.resolve_left fun h => by rw [hrb] at h; cases h.1
    have hg := hg rb hrb
    have hr := h.ok.res
    have hB : w.size ≤ 2 ^ 23 * c.costmap.resolution := w.cells.trans (by have := h.cell; nlinarith)
    have hp := h.corner; have hq := hg.centre
    have lx := hg.low_x; have ly := hg.low_y; have gx := hg.high_x; have gy := hg.high_y
    obtain ⟨x1, x2⟩ := cells_in hrd (n := 0) hr (by simpa using lx) gx hB
    obtain ⟨y1, y2⟩ := cells_in hrd (n := 0) hr (by simpa using ly) gy hB
    obtain ⟨nx, ex⟩ := Int.eq_ofNat_of_zero_le (show 0 ≤ roundHalfAway (rd (geometry.x / c.costmap.resolution)) by omega)
    obtain ⟨ny, ey⟩ := Int.eq_ofNat_of_zero_le (show 0 ≤ roundHalfAway (rd (geometry.y / c.costmap.resolution)) by omega)
    obtain ⟨b, m', e, hc', g, f1, t1, r1, z1, -, p1, p2, -⟩ := C96_window_partial hrd h.ok hrb (by linarith) (by linarith)
      (nx := nx) (ny := ny) (by omega) (by omega) ex ey hm l
    have same := C107_window_same_partial hrd hr ⟨by linarith [hp.1], by linarith [hp.2]⟩
      (fun p hp' => by
        cases hrb.symm.trans hp'
        exact ⟨(abs_sub _ _).trans (by linarith [hp.1, hq.1]), (abs_sub _ _).trans (by linarith [hp.2, hq.2])⟩)
      (geometry := geometry) ⟨abs_le.mpr ⟨by linarith, by linarith⟩, abs_le.mpr ⟨by linarith, by linarith⟩⟩ l m
    obtain rfl : m' = m1 := by
      rw [same, e] at e1
      exact (Prod.mk.inj e1).2
    refine ⟨b, m', same.trans e, fun h => (by cases h), fun p hp => ?_⟩
    cases hp
    exact ⟨hc', g, h1.arena, r1, f1, t1, p1, p2⟩

end

/-! ## A case, and a robot that is too far away -/

namespace Demo

theorem tenth_costmap : hundred.Costmap tenthCostmap :=
  ⟨tenthCostmap_ok, by decide +kernel, by decide +kernel, by decide +kernel, by unfold PointIn; decide +kernel⟩

/-- The costmap of C96 with the robot three hundred thousand kilometres away. -/
def farRos : Costmap2DROS ℚ := ⟨tenthCostmap, "map", some ⟨300000000, toDouble (3 / 20)⟩, 7⟩

end Demo

/-- D59. The distance of the robot in `C107_window_same_partial` cannot be left out: with the robot three thousand million cells away, the
number of the cell at the corner of the window does not fit an `int` and the conversion is undefined, where without bounds the call
returns false. -/
theorem C107_false_far :
    (fromCostmap2DROSAtRobotPoseI toDouble Demo.farRos ⟨toDouble (3 / 10), toDouble (1 / 10)⟩ "a" (CostMap.new [])).1 = .ub ∧
    (fromCostmap2DROSAtRobotPoseRd toDouble Demo.farRos ⟨toDouble (3 / 10), toDouble (1 / 10)⟩ "a" (CostMap.new [])).1 = .ok false := by
  constructor <;> decide +kernel

-- The hypotheses are met: the map of the whole costmap is one of those of C101, and its costs are read.
example : ∃ m', fromCostmap2DROSI toDouble (Demo.tenthRos (9 / 20)) "a" (CostMap.new []) = (.ok true, m') ∧
    HeldI Demo.hundred binary64 toFloat m' ∧
    ∃ v, Demo.tenthCostmap.cell 4 1 = some v ∧ m'.atPositionI toDouble "a" ⟨toDouble (9 / 20), toDouble (3 / 20)⟩ = .ok v := by
  obtain ⟨m', e, -, -, -, -, -, -, -, h⟩ := C107_whole_partial toDouble_precision (c := Demo.tenthRos (9 / 20)) Demo.tenth_costmap
    (new_coherent (ls := []) (by simp)) "a"
  refine ⟨m', e, .new (ls := []) (.fromCostmap (Demo.tenthRos (9 / 20)) "a") (by simp) trivial Demo.tenth_costmap ?_,
    h 4 1 _ (by decide) (by decide) (by decide +kernel) (by decide +kernel)⟩
  show Call.discard (fromCostmap2DROSI toDouble _ "a") _ = _
  unfold Call.discard
  rw [Act.bind_ok e]
  rfl

-- A window around the robot, the same.
example : ∃ b m', fromCostmap2DROSAtRobotPoseI toDouble (Demo.tenthRos (9 / 20)) ⟨toDouble (3 / 10), toDouble (1 / 10)⟩ "a"
    (CostMap.new []) = (.ok b, m') ∧ HeldI Demo.hundred binary64 toFloat m' := by
  have hg : ∀ p, (Demo.tenthRos (9 / 20)).robot = some p →
      Demo.hundred.Geometry ⟨toDouble (3 / 10), toDouble (1 / 10)⟩ (Demo.tenthRos (9 / 20)).costmap.resolution p := by
    intro p hp
    cases hp
    exact ⟨by decide +kernel, by decide +kernel, by decide +kernel, by decide +kernel, by decide +kernel,
      by unfold PointIn; decide +kernel⟩
  obtain ⟨b, m', e, -⟩ := C107_window toDouble_precision (c := Demo.tenthRos (9 / 20)) Demo.tenth_costmap hg
    (new_coherent (ls := []) (by simp)) "a"
  refine ⟨b, m', e, .new (ls := []) (.fromCostmapAtRobot (Demo.tenthRos (9 / 20)) ⟨toDouble (3 / 10), toDouble (1 / 10)⟩ "a")
    (by simp) (by simp [MachineCall.GivesGeometry, Demo.tenthRos]) ⟨Demo.tenth_costmap, hg⟩ ?_⟩
  show Call.discard (fromCostmap2DROSAtRobotPoseI toDouble _ _ "a") _ = _
  unfold Call.discard
  rw [Act.bind_ok e]
  rfl

end CostMapModel

import Verif.Lemmas.Costmap2D

/-!
# C64, C65: ROS costmaps
-/

set_option linter.unusedSectionVars false

namespace CostMapModel
open CostMap
variable {K : Type} [Field K] [LinearOrder K] [IsStrictOrderedRing K] [FloorRing K]

/-- C64. -/
theorem C64_from_ros_costmap {c : Costmap2DROS K} (hc : c.costmap.Ok) {m : CostMap K} (hm : m.Coherent) (l : String) :
    ∃ m', fromCostmap2DROS c l m = (.ok true, m') ∧ m'.Coherent ∧ m'.Geo ∧ m'.frameId = c.globalFrame ∧
      m'.resolution = c.costmap.resolution ∧ m'.size = ⟨c.costmap.sizeX, c.costmap.sizeY⟩ ∧
      m'.position = ⟨c.costmap.origin.x + m'.length.x / 2, c.costmap.origin.y + m'.length.y / 2⟩ ∧ m'.startIndex = 0 ∧
      m'.layers = (if m.exists l then m.layers else m.layers ++ [l]) ∧
      ∀ (i : Idx) (q p : Vec K), m'.getPosition i = some q → InsideSquare p q m'.resolution →
        ∃ v, c.costmap.costAt p = some v ∧ m'.atPosition l p = .ok v := by
  obtain ⟨m1, e1, c1, g1, s1, z1, r1, p1, l1, ly1, ex1, -⟩ := setGeometry_whole hc.res hc.size_x hc.size_y
    (⟨c.costmap.origin.x + 1 / 2 * (c.costmap.sizeX * c.costmap.resolution),
      c.costmap.origin.y + 1 / 2 * (c.costmap.sizeY * c.costmap.resolution)⟩ : Vec K) hm
  have g2 : (m1.setFrameId c.globalFrame).Geo := ⟨g1.res_pos, g1.size_x, g1.size_y, g1.len_x, g1.len_y, g1.start⟩
  obtain ⟨m', e2, c2, sg, sm, ly2, -, v2⟩ := addFromCostmap2D_run hc.costs (m := m1.setFrameId c.globalFrame)
    ⟨c1.nodup, c1.mem_iff, c1.dims⟩ z1 s1 l
  have g3 : m'.Geo := ⟨by rw [sg.resolution]; exact g2.res_pos, by rw [sg.size]; exact g2.size_x,
    by rw [sg.size]; exact g2.size_y, by rw [sg.length, sg.size, sg.resolution]; exact g2.len_x,
    by rw [sg.length, sg.size, sg.resolution]; exact g2.len_y, by rw [sg.startIndex, sg.size]; exact g2.start⟩
  have hr : m'.resolution = c.costmap.resolution := sg.resolution.trans r1
  have hz : m'.size = ⟨c.costmap.sizeX, c.costmap.sizeY⟩ := sg.size.trans z1
  have hlen : m'.length = ⟨c.costmap.sizeX * c.costmap.resolution, c.costmap.sizeY * c.costmap.resolution⟩ :=
    sg.length.trans l1
  have hpos := sg.position.trans (show (m1.setFrameId c.globalFrame).position = _ from p1)
  refine ⟨m', ?_, c2, g3, sm.frameId, hr, hz, ?_, sg.startIndex.trans s1, ?_, ?_⟩
  · unfold fromCostmap2DROS
    rw [Act.bind_ok (show initFromCostmap2D c m = (.ok (), m1.setFrameId c.globalFrame) by
      unfold initFromCostmap2D; rw [Act.bind_ok e1]; rfl), e2]
  · rw [hpos, hlen]; ext <;> simp only <;> ring
  · rw [ly2]
    have : (m1.setFrameId c.globalFrame).exists l = m.exists l := ex1 l
    rw [this]
    simp only [setFrameId, ly1]
  · intro i q p hq hp
    refine placed g3 (sg.startIndex.trans s1) hz hr.symm ?_ (fun i hi => v2 i (by rw [← sg.size]; exact hi)) hq hp
    rw [hpos, hlen]; ext <;> simp only <;> ring

/-- C65 for a window of a whole number of cells around a robot that is far enough from the border of the ROS costmap: the map has
the requested size, its centre is the robot's position up to half a cell, and it shows the costs of the ROS costmap. In
the full statement the requested lengths are any positive numbers; see `C65_false`. -/
theorem C65_window_partial {c : Costmap2DROS K} (hc : c.costmap.Ok) {rb : Vec K} (hrb : c.robot = some rb) {nx ny : Nat}
    (hnx : 0 < nx) (hny : 0 < ny)
    (hx0 : c.costmap.origin.x + (nx + 1) * c.costmap.resolution / 2 ≤ rb.x)
    (hx1 : rb.x + (nx + 1) * c.costmap.resolution / 2 < c.costmap.origin.x + c.costmap.sizeX * c.costmap.resolution)
    (hy0 : c.costmap.origin.y + (ny + 1) * c.costmap.resolution / 2 ≤ rb.y)
    (hy1 : rb.y + (ny + 1) * c.costmap.resolution / 2 < c.costmap.origin.y + c.costmap.sizeY * c.costmap.resolution)
    {m : CostMap K} (hm : m.Coherent) (l : String) :
    ∃ m', fromCostmap2DROSAtRobotPose c ⟨nx * c.costmap.resolution, ny * c.costmap.resolution⟩ l m = (.ok true, m') ∧
      m'.Coherent ∧ m'.Geo ∧ m'.frameId = c.globalFrame ∧ m'.timestamp = c.now ∧
      m'.resolution = c.costmap.resolution ∧ m'.size = ⟨nx, ny⟩ ∧ m'.startIndex = 0 ∧
      |m'.position.x - rb.x| ≤ m'.resolution / 2 ∧ |m'.position.y - rb.y| ≤ m'.resolution / 2 ∧
      m'.layers = (if m.exists l then m.layers else m.layers ++ [l]) ∧
      ∀ (i : Idx) (q p : Vec K), m'.getPosition i = some q → InsideSquare p q m'.resolution →
        ∃ v, c.costmap.costAt p = some v ∧ m'.atPosition l p = .ok v := by
  have r := hc.res
  obtain ⟨m1, e1, c1, g1, s1, z1, r1, p1, l1, ly1, ex1, sm1⟩ := setGeometry_whole r hnx hny
    (⟨windowCentre (nx * c.costmap.resolution) rb.x c.costmap.origin.x c.costmap.resolution,
      windowCentre (ny * c.costmap.resolution) rb.y c.costmap.origin.y c.costmap.resolution⟩ : Vec K)
    (m := (m.setFrameId c.globalFrame).setTimestamp c.now) ⟨hm.nodup, hm.mem_iff, hm.dims⟩
  -- the window's lower left cell
  have axis : ∀ {n N : Nat} {p o : K}, o + (n + 1) * c.costmap.resolution / 2 ≤ p →
      p + (n + 1) * c.costmap.resolution / 2 < o + N * c.costmap.resolution →
      ∃ k : Nat, k + n < N ∧ windowCentre (n * c.costmap.resolution) p o c.costmap.resolution - n * c.costmap.resolution / 2 =
        o + k * c.costmap.resolution := by
    intro n N p o h0 h1
    obtain ⟨k, hk⟩ := windowCentre_aligned (p := p) (o := o) r n
    obtain ⟨n1, n2⟩ := abs_le.1 (windowCentre_near (len := n * c.costmap.resolution) (p := p) (o := o) r)
    have k0 : 0 ≤ k := by
      have : (0 : K) ≤ k * c.costmap.resolution := by linarith
      have := (mul_nonneg_iff_of_pos_right r).1 this
      exact_mod_cast this
    obtain ⟨j, rfl⟩ := Int.eq_ofNat_of_zero_le k0
    refine ⟨j, ?_, ?_⟩
    · have : ((j + n : Nat) : K) * c.costmap.resolution < N * c.costmap.resolution := by
        push_cast at hk ⊢; linarith
      have := lt_of_mul_lt_mul_right this r.le
      exact_mod_cast this
    · push_cast at hk; linarith
  obtain ⟨x, x1, x2⟩ := axis hx0 hx1
  obtain ⟨y, y1, y2⟩ := axis hy0 hy1
  obtain ⟨w, w1, w2, w3, w4, w5, w6, w7⟩ := window_run hc x1 y1
    (o := ⟨m1.position.x - m1.length.x / 2, m1.position.y - m1.length.y / 2⟩) (s := m1.length)
    (by rw [p1, l1]; exact Vec.ext x2 y2) l1
  obtain ⟨m', e2, c2, sg, sm, ly2, -, v2⟩ := addFromCostmap2D_run (c := w) (by rw [w6, w2, w3]) c1 (by rw [z1, w2, w3]) s1 l
  have g3 : m'.Geo := ⟨by rw [sg.resolution]; exact g1.res_pos, by rw [sg.size]; exact g1.size_x,
    by rw [sg.size]; exact g1.size_y, by rw [sg.length, sg.size, sg.resolution]; exact g1.len_x,
    by rw [sg.length, sg.size, sg.resolution]; exact g1.len_y, by rw [sg.startIndex, sg.size]; exact g1.start⟩
  have hr : m'.resolution = c.costmap.resolution := sg.resolution.trans r1
  refine ⟨m', ?_, c2, g3, sm.frameId.trans sm1.frameId, sm.timestamp.trans sm1.timestamp, hr, sg.size.trans z1,
    sg.startIndex.trans s1, ?_, ?_, ?_, ?_⟩
  · unfold fromCostmap2DROSAtRobotPose
    have h1 : initAtRobotPose c ⟨nx * c.costmap.resolution, ny * c.costmap.resolution⟩ m = (.ok true, m1) := by
      unfold initAtRobotPose
      rw [hrb]
      simp only
      rw [Act.bind_ok (show Act.modify _ m = (.ok (), _) from rfl), Act.bind_ok e1]
      rfl
    have h2 : addAtRobotPose c l m1 = (.ok true, m') := by
      unfold addAtRobotPose
      rw [if_neg (by simp [r1]), w1, Act.bind_ok (show Act.lift (.ok (some w)) m1 = (.ok (some w), m1) from rfl)]
      simp only
      rw [Act.bind_ok e2]
      rfl
    rw [Act.bind_ok h1, if_pos rfl, Act.bind_ok h2]
    rfl
  · rw [sg.position, p1, hr]; exact windowCentre_near r
  · rw [sg.position, p1, hr]; exact windowCentre_near r
  · rw [ly2, ex1, ly1]; rfl
  · intro i q p hq hp
    obtain ⟨v, h1, h2⟩ := placed (c := w) g3 (sg.startIndex.trans s1) (by rw [sg.size, z1, w2, w3])
      (by rw [w4, hr]) (by rw [w5, sg.position, sg.length]; ext <;> simp only <;> ring)
      (fun i hi => v2 i (by rw [← sg.size]; exact hi)) hq hp
    exact ⟨v, w7 _ _ h1, h2⟩

/-- C65. Without a robot pose: false, and the map is unchanged. -/
theorem C65_no_pose {c : Costmap2DROS K} (h : c.robot = none) (geometry : Vec K) (l : String) (m : CostMap K) :
    fromCostmap2DROSAtRobotPose c geometry l m = (.ok false, m) := by
  unfold fromCostmap2DROSAtRobotPose
  rw [Act.bind_ok (show initAtRobotPose c geometry m = (.ok false, m) by unfold initAtRobotPose; rw [h]; rfl)]
  rfl

/-- C65. A window that leaves the ROS costmap whatever cell it is centred on: false, and no layer is added. The map has the
window's geometry then. -/
theorem C65_off_the_costmap {c : Costmap2DROS K} (hr : 0 < c.costmap.resolution) {rb : Vec K} (hrb : c.robot = some rb)
    {nx ny : Nat} (hnx : 0 < nx) (hny : 0 < ny)
    (h : rb.x - (nx - 1) * c.costmap.resolution / 2 < c.costmap.origin.x ∨
      rb.y - (ny - 1) * c.costmap.resolution / 2 < c.costmap.origin.y ∨
      c.costmap.origin.x + c.costmap.sizeX * c.costmap.resolution ≤ rb.x + (nx - 1) * c.costmap.resolution / 2 ∨
      c.costmap.origin.y + c.costmap.sizeY * c.costmap.resolution ≤ rb.y + (ny - 1) * c.costmap.resolution / 2)
    {m : CostMap K} (hm : m.Coherent) (l : String) :
    ∃ m', fromCostmap2DROSAtRobotPose c ⟨nx * c.costmap.resolution, ny * c.costmap.resolution⟩ l m = (.ok false, m') ∧
      m'.layers = m.layers ∧ m'.size = ⟨nx, ny⟩ ∧ m'.resolution = c.costmap.resolution ∧ m'.frameId = c.globalFrame ∧
      m'.timestamp = c.now ∧ m'.startIndex = 0 ∧ m'.Geo ∧ m'.Coherent := by
  obtain ⟨m1, e1, c1, g1, s1, z1, r1, p1, l1, ly1, -, t1⟩ := setGeometry_whole hr hnx hny
    (⟨windowCentre (nx * c.costmap.resolution) rb.x c.costmap.origin.x c.costmap.resolution,
      windowCentre (ny * c.costmap.resolution) rb.y c.costmap.origin.y c.costmap.resolution⟩ : Vec K)
    (m := (m.setFrameId c.globalFrame).setTimestamp c.now) ⟨hm.nodup, hm.mem_iff, hm.dims⟩
  refine ⟨m1, ?_, ly1, z1, r1, t1.frameId, t1.timestamp, s1, g1, c1⟩
  unfold fromCostmap2DROSAtRobotPose
  have h1 : initAtRobotPose c ⟨nx * c.costmap.resolution, ny * c.costmap.resolution⟩ m = (.ok true, m1) := by
    unfold initAtRobotPose
    rw [hrb]
    simp only
    rw [Act.bind_ok (show Act.modify _ m = (.ok (), _) from rfl), Act.bind_ok e1]
    rfl
  have hw : c.costmap.window ⟨m1.position.x - m1.length.x / 2, m1.position.y - m1.length.y / 2⟩ m1.length = .ok none := by
    have nx1 := abs_le.1 (windowCentre_near (len := nx * c.costmap.resolution) (p := rb.x) (o := c.costmap.origin.x) hr)
    have ny1 := abs_le.1 (windowCentre_near (len := ny * c.costmap.resolution) (p := rb.y) (o := c.costmap.origin.y) hr)
    have key : c.costmap.worldToMap ⟨m1.position.x - m1.length.x / 2, m1.position.y - m1.length.y / 2⟩ = none ∨
        c.costmap.worldToMap ⟨m1.position.x - m1.length.x / 2 + m1.length.x, m1.position.y - m1.length.y / 2 + m1.length.y⟩ =
          none := by
      rw [p1, l1]
      simp only
      rcases h with h | h | h | h
      · exact .inl (worldToMap_none hr (.inl (by simp only; linarith [nx1.2])))
      · exact .inl (worldToMap_none hr (.inr (.inl (by simp only; linarith [ny1.2]))))
      · exact .inr (worldToMap_none hr (.inr (.inr (.inl (by simp only; linarith [nx1.1])))))
      · exact .inr (worldToMap_none hr (.inr (.inr (.inr (by simp only; linarith [ny1.1])))))
    unfold Costmap2D.window
    rcases key with key | key
    · rw [key]
    · rw [key]
      cases c.costmap.worldToMap ⟨m1.position.x - m1.length.x / 2, m1.position.y - m1.length.y / 2⟩ <;> rfl
  have h2 : addAtRobotPose c l m1 = (.ok false, m1) := by
    unfold addAtRobotPose
    rw [if_neg (by simp [r1]), hw, Act.bind_ok (show Act.lift (.ok none) m1 = (.ok none, m1) from rfl)]
    rfl
  rw [Act.bind_ok h1, if_pos rfl, Act.bind_ok h2]
  rfl

namespace Demo
/-- A ROS costmap of 8 x 6 cells of 1/2 m; the cost of the cell in column x and row y is 10 y + x. -/
def costmap2D : Costmap2D ℚ :=
  ⟨8, 6, 1 / 2, ⟨-1, 2⟩, (List.range 48).map fun k => UInt8.ofNat (10 * (k / 8) + k % 8)⟩

theorem costmap2D_ok : costmap2D.Ok := ⟨by decide +kernel, by decide, by decide, by decide +kernel⟩

/-- The robot is in the cell in column 3 and row 2. -/
def ros : Costmap2DROS ℚ := ⟨costmap2D, "map", some ⟨3 / 5, 13 / 4⟩, 7⟩
end Demo

example : ∃ m', fromCostmap2DROS Demo.ros "obstacle_costs" (CostMap.new []) = (.ok true, m') ∧ m'.frameId = "map" := by
  obtain ⟨m', h1, -, -, h2, -⟩ := C64_from_ros_costmap (c := Demo.ros) Demo.costmap2D_ok (new_coherent (ls := []) (by simp))
    "obstacle_costs"
  exact ⟨m', h1, h2⟩
example : (fromCostmap2DROS Demo.ros "a" (CostMap.new [])).2.atPosition "a" ⟨3 / 5, 13 / 4⟩ = .ok 23 ∧
    Demo.costmap2D.costAt ⟨3 / 5, 13 / 4⟩ = some 23 := by decide +kernel
example : ∃ m', fromCostmap2DROSAtRobotPose Demo.ros ⟨3 * (1 / 2), 2 * (1 / 2)⟩ "a" (CostMap.new []) = (.ok true, m') ∧
    m'.size = ⟨3, 2⟩ := by
  obtain ⟨m', h1, -, -, -, -, -, h2, -⟩ := C65_window_partial (c := Demo.ros) Demo.costmap2D_ok rfl (nx := 3) (ny := 2)
    (by decide) (by decide) (by decide +kernel) (by decide +kernel) (by decide +kernel) (by decide +kernel)
    (new_coherent (ls := []) (by simp)) "a"
  exact ⟨m', h1, h2⟩
example : ∃ m', fromCostmap2DROSAtRobotPose Demo.ros ⟨9 * (1 / 2), 2 * (1 / 2)⟩ "a" (CostMap.new []) = (.ok false, m') ∧
    m'.layers = [] := by
  obtain ⟨m', h1, h2, -⟩ := C65_off_the_costmap (c := Demo.ros) (by decide +kernel) rfl (nx := 9) (ny := 2)
    (by decide) (by decide) (by decide +kernel) (new_coherent (ls := []) (by simp)) "a"
  exact ⟨m', h1, h2⟩
example (m : CostMap ℚ) : fromCostmap2DROSAtRobotPose { Demo.ros with robot := none } ⟨1, 1⟩ "a" m = (.ok false, m) :=
  C65_no_pose rfl _ _ _

/-- C65 is false for other lengths: a window of 2.5 by 2 cells gets 3 cells around a corner between cells, so its cells lie
half a cell beside those of the ROS costmap and show the costs of their neighbours. The call returns true. -/
theorem C65_false : ¬ ∀ (c : Costmap2DROS ℚ) (geometry p : Vec ℚ) (m' : CostMap ℚ) (v : Cost), c.costmap.Ok →
    fromCostmap2DROSAtRobotPose c geometry "a" (CostMap.new []) = (.ok true, m') → m'.atPosition "a" p = .ok v →
    c.costmap.costAt p = some v := by
  intro h
  have e : (fromCostmap2DROSAtRobotPose Demo.ros ⟨5 / 4, 1⟩ "a" (CostMap.new [])).1 = .ok true := by decide +kernel
  have := h Demo.ros ⟨5 / 4, 1⟩ ⟨3 / 5, 13 / 4⟩ _ 22 Demo.costmap2D_ok (Prod.ext e rfl) (by decide +kernel)
  revert this
  decide +kernel

end CostMapModel

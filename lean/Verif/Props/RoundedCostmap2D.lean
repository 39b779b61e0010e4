import Verif.Lemmas.RoundedCostmap2D
import Verif.Lemmas.MachineSpiral
import Verif.Props.RoundedConversions
import Verif.Props.Costmap2D

/-!
# C96: ROS costmaps in floating point
-/

set_option linter.unusedSectionVars false

namespace CostMapModel
open CostMap

section
variable {K : Type} [Field K] [LinearOrder K] [IsStrictOrderedRing K] [FloorRing K]

theorem geoRd_of_same {rd : K → K} {m m' : CostMap K} (h : m.GeoRd rd) (sg : SameGeometry m m') : m'.GeoRd rd :=
  ⟨by rw [sg.resolution]; exact h.res_pos, by rw [sg.size]; exact h.size_x, by rw [sg.size]; exact h.size_y,
    by rw [sg.length, sg.size, sg.resolution]; exact h.len_x, by rw [sg.length, sg.size, sg.resolution]; exact h.len_y,
    by rw [sg.startIndex, sg.size]; exact h.start⟩

/-! ## Whole costmaps -/

/-- The tolerance of the map made from a whole costmap, on one axis. -/
theorem whole_tol {o r pos : K} {n : Nat} (hr : 0 < r) (h : |pos - (o + n * r / 2)| ≤ Costmap2D.axisTol n o r / 4) :
    extent n pos r / 2 ^ 48 ≤ 3 / 4 * Costmap2D.axisTol n o r := by
  have n0 : (0 : K) ≤ n := Nat.cast_nonneg n
  have ho := abs_nonneg o
  have hp : |pos| ≤ |o| + n * r / 2 + Costmap2D.axisTol n o r / 4 := by
    have e : pos = (pos - (o + n * r / 2)) + (o + n * r / 2) := by ring
    calc |pos| ≤ |pos - (o + n * r / 2)| + |o + n * r / 2| := 
        le_of_eq_of_le (congrArg abs e) (abs_add_le (pos - (o + n * r / 2)) (o + n * r / 2))
      _ ≤ Costmap2D.axisTol n o r / 4 + (|o| + n * r / 2) := by
        refine add_le_add h ((abs_add_le _ _).trans ?_)
        rw [abs_of_nonneg (a := (n : K) * r / 2) (by positivity)]
      _ = _ := by ring
  unfold Costmap2D.axisTol at *
  unfold extent
  have N0 : 0 ≤ (n : K) * r := by positivity
  rw [Int.cast_natCast, show ((n : K) + 1) * r = n * r + r by ring]
  rw [show 2 * ((n : K) + 1) * r = 2 * (n * r) + 2 * r by ring] at hp ⊢
  rw [div_le_iff₀ (by norm_num)]
  linarith

/-- C96, whole costmaps: `fromCostmap2DROS` in floating point gives a map with the frame, the resolution and the cells of the
costmap, in its place up to rounding. At every position that is further from the borders of a cell of the costmap than the
tolerance, both look up that cell, and so they return the same cost. The full statement is about every position inside a cell, as C64
is in exact arithmetic: see `C96_false_whole`. -/
theorem C96_whole_partial {rd : K → K} (hrd : DoublePrecision rd) {c : Costmap2DROS K} (hc : c.costmap.Ok) (ht : c.costmap.Tame)
    {m : CostMap K} (hm : m.Coherent) (l : String) :
    ∃ m', fromCostmap2DROSRd rd c l m = (.ok true, m') ∧ m'.Coherent ∧ m'.GeoRd rd ∧ m'.Tame ∧ m'.frameId = c.globalFrame ∧
      m'.timestamp = m.timestamp ∧
      m'.resolution = c.costmap.resolution ∧ m'.size = ⟨c.costmap.sizeX, c.costmap.sizeY⟩ ∧ m'.startIndex = 0 ∧
      |m'.position.x - (c.costmap.origin.x + c.costmap.sizeX * m'.resolution / 2)| ≤
        Costmap2D.axisTol c.costmap.sizeX c.costmap.origin.x m'.resolution ∧
      |m'.position.y - (c.costmap.origin.y + c.costmap.sizeY * m'.resolution / 2)| ≤
        Costmap2D.axisTol c.costmap.sizeY c.costmap.origin.y m'.resolution ∧
      m'.layers = (if m.exists l then m.layers else m.layers ++ [l]) ∧
      ∀ (col row : Nat) (p : Vec K), col < c.costmap.sizeX → row < c.costmap.sizeY →
        |p.x - (c.costmap.cellCentre col row).x| ≤
          m'.resolution / 2 - Costmap2D.axisTol c.costmap.sizeX c.costmap.origin.x m'.resolution →
        |p.y - (c.costmap.cellCentre col row).y| ≤
          m'.resolution / 2 - Costmap2D.axisTol c.costmap.sizeY c.costmap.origin.y m'.resolution →
        ∃ v, c.costmap.cell col row = some v ∧ c.costmap.worldToMapRd rd p = some (col, row) ∧ m'.atPositionRd rd l p = .ok v := by
  have r := hc.res
  have bound : ∀ (n : Nat) (o : K), |o| + 2 * ((n : K) + 1) * c.costmap.resolution ≤ 2 ^ 45 * c.costmap.resolution →
      (n : Int) < 2 ^ 50 := by
    intro n o h
    have : ((n : K) + 1) * c.costmap.resolution ≤ 2 ^ 45 * c.costmap.resolution := by
      have : (0 : K) ≤ ((n : K) + 1) * c.costmap.resolution := by positivity
      have e : 2 * ((n : K) + 1) * c.costmap.resolution = 2 * (((n : K) + 1) * c.costmap.resolution) := by ring
      linarith [abs_nonneg o]
    have := le_of_mul_le_mul_right this r
    have : (n : K) + 1 < 2 ^ 50 := lt_of_le_of_lt this (by norm_num)
    have : n + 1 < 2 ^ 50 := by exact_mod_cast this
    omega
  obtain ⟨lx, cx⟩ := cells_of_length hrd r (n := c.costmap.sizeX) (by exact_mod_cast hc.size_x) (bound _ _ ht.x)
  obtain ⟨ly, cy⟩ := cells_of_length hrd r (n := c.costmap.sizeY) (by exact_mod_cast hc.size_y) (bound _ _ ht.y)
  rw [Int.cast_natCast] at lx ly cx cy
  obtain ⟨m1, e1, c1, g1, s1, z1, r1, p1, l1, ly1, ex1, sm1⟩ := setGeometryRd_whole (rd := rd)
    (len := ⟨rd (c.costmap.sizeX * c.costmap.resolution), rd (c.costmap.sizeY * c.costmap.resolution)⟩) r lx ly hc.size_x hc.size_y
    cx cy ⟨rd (c.costmap.origin.x + rd (1 / 2 * rd (c.costmap.sizeX * c.costmap.resolution))),
      rd (c.costmap.origin.y + rd (1 / 2 * rd (c.costmap.sizeY * c.costmap.resolution)))⟩ hm
  obtain ⟨m', e2, c2, sg, sm, ly2, -, v2⟩ := addFromCostmap2D_run hc.costs (m := m1.setFrameId c.globalFrame)
    ⟨c1.nodup, c1.mem_iff, c1.dims⟩ z1 s1 l
  have g' : m'.GeoRd rd := geoRd_of_same (m := m1.setFrameId c.globalFrame)
    ⟨g1.res_pos, g1.size_x, g1.size_y, g1.len_x, g1.len_y, g1.start⟩ sg
  have hr' : m'.resolution = c.costmap.resolution := sg.resolution.trans r1
  have hz' : m'.size = ⟨c.costmap.sizeX, c.costmap.sizeY⟩ := sg.size.trans z1
  have hs' : m'.startIndex = 0 := sg.startIndex.trans s1
  have px : |m'.position.x - (c.costmap.origin.x + c.costmap.sizeX * m'.resolution / 2)| ≤
      Costmap2D.axisTol c.costmap.sizeX c.costmap.origin.x m'.resolution / 4 := by
    rw [hr', sg.position, show (m1.setFrameId c.globalFrame).position = m1.position from rfl, p1]
    exact wholeCentre_near hrd r _
  have py : |m'.position.y - (c.costmap.origin.y + c.costmap.sizeY * m'.resolution / 2)| ≤
      Costmap2D.axisTol c.costmap.sizeY c.costmap.origin.y m'.resolution / 4 := by
    rw [hr', sg.position, show (m1.setFrameId c.globalFrame).position = m1.position from rfl, p1]
    exact wholeCentre_near hrd r _
  have tx : m'.tolX ≤ 3 / 4 * Costmap2D.axisTol c.costmap.sizeX c.costmap.origin.x m'.resolution := by
    unfold tolX; rw [hz']; exact whole_tol g'.res_pos px
  have ty : m'.tolY ≤ 3 / 4 * Costmap2D.axisTol c.costmap.sizeY c.costmap.origin.y m'.resolution := by
    unfold tolY; rw [hz']; exact whole_tol g'.res_pos py
  have ax : 0 ≤ Costmap2D.axisTol c.costmap.sizeX c.costmap.origin.x m'.resolution := by
    have := g'.res_pos; unfold Costmap2D.axisTol; positivity
  have ay : 0 ≤ Costmap2D.axisTol c.costmap.sizeY c.costmap.origin.y m'.resolution := by
    have := g'.res_pos; unfold Costmap2D.axisTol; positivity
  have tame : m'.Tame := by
    have hx := ht.x
    have hy := ht.y
    rw [← hr'] at hx hy
    have hr0 := g'.res_pos
    constructor
    · unfold tolX Costmap2D.axisTol at tx
      rw [div_le_iff₀ (by norm_num)] at tx
      linarith
    · unfold tolY Costmap2D.axisTol at ty
      rw [div_le_iff₀ (by norm_num)] at ty
      linarith
  refine ⟨m', ?_, c2, g', tame, sm.frameId, sm.timestamp.trans sm1.timestamp, hr', hz', hs', by linarith, by linarith, ?_, ?_⟩
  · unfold fromCostmap2DROSRd initFromCostmap2DRd
    rw [Act.bind_ok (show Act.bind _ _ m = (.ok (), m1.setFrameId c.globalFrame) by rw [Act.bind_ok e1]; rfl)]
    exact e2
  · rw [ly2]
    have : (m1.setFrameId c.globalFrame).exists l = m.exists l := ex1 l
    rw [this, show (m1.setFrameId c.globalFrame).layers = m.layers from ly1]
  · intro col row p hcol hrow hx hy
    have hi : (⟨(c.costmap.sizeX : Int) - 1 - col, (c.costmap.sizeY : Int) - 1 - row⟩ : Idx).In m'.size := by
      rw [hz']; exact ⟨by simp only; omega, by simp only; omega, by simp only; omega, by simp only; omega⟩
    obtain ⟨v, a1, a2⟩ := v2 _ (by rw [← sg.size]; exact hi)
    have hlog : m'.logical ⟨(c.costmap.sizeX : Int) - 1 - col, (c.costmap.sizeY : Int) - 1 - row⟩ =
        ⟨(c.costmap.sizeX : Int) - 1 - col, (c.costmap.sizeY : Int) - 1 - row⟩ := by
      obtain ⟨h1, h2, h3, h4⟩ := hi
      unfold logical
      rw [hs']; ext
      · simp only [show (0 : Idx).x = 0 from rfl, sub_zero]; exact Int.emod_eq_of_lt h1 h2
      · simp only [show (0 : Idx).y = 0 from rfl, sub_zero]; exact Int.emod_eq_of_lt h3 h4
    have near : ∀ {q pos o a rr : K} {n k : Nat}, |pos - (o + n * rr / 2)| ≤ a / 4 → |q - (o + ((k : K) + 1 / 2) * rr)| ≤ rr / 2 - a →
        |q - (pos + ((n : K) / 2 - (n - 1 - k) - 1 / 2) * rr)| ≤ rr / 2 - 3 / 4 * a := by
      intro q pos o a rr n k h1 h2
      have e : q - (pos + ((n : K) / 2 - (n - 1 - k) - 1 / 2) * rr) = (q - (o + ((k : K) + 1 / 2) * rr)) - (pos - (o + n * rr / 2)) := by
        ring
      rw [e]
      exact (abs_sub _ _).trans (by linarith)
    have hx0 := hx
    have hy0 := hy
    simp only [Costmap2D.cellCentre] at hx hy
    rw [← hr'] at hx hy
    obtain ⟨-, hidx⟩ := C74_interior_of_cell hrd g' tame hi (p := p)
      (by rw [hlog, hz']; simp only [Int.cast_natCast, Int.cast_sub, Int.cast_one]; exact (near px hx).trans (by linarith))
      (by rw [hlog, hz']; simp only [Int.cast_natCast, Int.cast_sub, Int.cast_one]; exact (near py hy).trans (by linarith))
    refine ⟨v, ?_, ?_, ?_⟩
    · unfold Costmap2D.cell
      rw [if_pos ⟨hcol, hrow⟩, ← a2]
      congr 1
      have : ((c.costmap.sizeY : Int) - 1 - (c.costmap.sizeY - 1 - row)) * c.costmap.sizeX +
          (c.costmap.sizeX - 1 - (c.costmap.sizeX - 1 - col)) = ((row * c.costmap.sizeX + col : Nat) : Int) := by
        push_cast; ring
      simp only
      rw [this]
      rfl
    · rw [hr'] at hx hy
      obtain ⟨b1, b2⟩ := lookup_cell hrd r hcol hx
      obtain ⟨b3, b4⟩ := lookup_cell hrd r hrow hy
      unfold Costmap2D.worldToMapRd
      rw [if_neg (by rintro (h | h); exacts [b1 h, b3 h])]
      simp only [b2, b4]
      rw [if_pos ⟨hcol, hrow⟩]
    · unfold atPositionRd
      rw [hidx]
      exact a1

/-! ## The window around the robot -/

/-- C96, the window around the robot, for any lengths that are at least half a cell: the map gets the frame, time, resolution and size
of the request and its centre is the robot's position up to half a cell and rounding. Either no layer is written, or each cost that is
shown is that of a cell of the ROS costmap whose centre is no more than one cell below the centre of the map's cell on each axis
(and not above it), up to rounding. The full statement has a layer whenever the call returns true, with the costs of the same
place: see `C96_false_no_layer`, `C96_false_shifted` and `C96_false_parity`. -/
theorem C96_window_partial {rd : K → K} (hrd : DoublePrecision rd) {c : Costmap2DROS K} (hc : c.costmap.Ok) {rb : Vec K}
    (hrb : c.robot = some rb) {geometry : Vec K} (lx : 0 < geometry.x) (ly : 0 < geometry.y) {nx ny : Nat} (hnx : 0 < nx)
    (hny : 0 < ny) (cx : roundHalfAway (rd (geometry.x / c.costmap.resolution)) = nx)
    (cy : roundHalfAway (rd (geometry.y / c.costmap.resolution)) = ny) {m : CostMap K} (hm : m.Coherent) (l : String) :
    ∃ b m', fromCostmap2DROSAtRobotPoseRd rd c geometry l m = (.ok b, m') ∧ m'.Coherent ∧ m'.GeoRd rd ∧
      m'.frameId = c.globalFrame ∧ m'.timestamp = c.now ∧ m'.resolution = c.costmap.resolution ∧ m'.size = ⟨nx, ny⟩ ∧
      m'.startIndex = 0 ∧
      |m'.position.x - rb.x| ≤ m'.resolution / 2 + (|rb.x| + |c.costmap.origin.x| + m'.resolution) / 2 ^ 48 ∧
      |m'.position.y - rb.y| ≤ m'.resolution / 2 + (|rb.y| + |c.costmap.origin.y| + m'.resolution) / 2 ^ 48 ∧
      ((m'.layers = m.layers ∧ ∀ l', m'.exists l' = m.exists l') ∨
       (b = true ∧ m'.layers = (if m.exists l then m.layers else m.layers ++ [l]) ∧
        ∀ i : Idx, i.In m'.size → ∃ (v : Cost) (col row : Nat), m'.at l i = .ok v ∧ c.costmap.cell col row = some v ∧
          -(m'.tolX + c.costmap.sizeX * m'.resolution / 2 ^ 48) ≤ (m'.idealCentre i).x - (c.costmap.cellCentre col row).x ∧
          (m'.idealCentre i).x - (c.costmap.cellCentre col row).x ≤
            m'.resolution + (m'.tolX + c.costmap.sizeX * m'.resolution / 2 ^ 48) ∧
          -(m'.tolY + c.costmap.sizeY * m'.resolution / 2 ^ 48) ≤ (m'.idealCentre i).y - (c.costmap.cellCentre col row).y ∧
          (m'.idealCentre i).y - (c.costmap.cellCentre col row).y ≤
            m'.resolution + (m'.tolY + c.costmap.sizeY * m'.resolution / 2 ^ 48))) := by
  have r := hc.res
  obtain ⟨m1, e1, c1, g1, s1, z1, r1, p1, l1, ly1, ex1, sm1⟩ := setGeometryRd_whole (rd := rd) r lx ly hnx hny cx cy
    ⟨windowCentreRd rd geometry.x rb.x c.costmap.origin.x c.costmap.resolution,
      windowCentreRd rd geometry.y rb.y c.costmap.origin.y c.costmap.resolution⟩
    (m := (m.setFrameId c.globalFrame).setTimestamp c.now) ⟨hm.nodup, hm.mem_iff, hm.dims⟩
  have hinit : initAtRobotPoseRd rd c geometry m = (.ok true, m1) := by
    unfold initAtRobotPoseRd
    rw [hrb]
    simp only
    rw [Act.bind_ok (show Act.modify _ m = (.ok (), _) from rfl), Act.bind_ok e1]
    rfl
  have posx : |m1.position.x - rb.x| ≤ m1.resolution / 2 + (|rb.x| + |c.costmap.origin.x| + m1.resolution) / 2 ^ 48 := by
    rw [p1, r1]; exact windowCentreRd_near hrd r
  have posy : |m1.position.y - rb.y| ≤ m1.resolution / 2 + (|rb.y| + |c.costmap.origin.y| + m1.resolution) / 2 ^ 48 := by
    rw [p1, r1]; exact windowCentreRd_near hrd r
  -- everything but the layer
  have done : ∀ b, addAtRobotPoseRd rd c l m1 = (.ok b, m1) → fromCostmap2DROSAtRobotPoseRd rd c geometry l m = (.ok b, m1) := by
    intro b hb
    unfold fromCostmap2DROSAtRobotPoseRd
    rw [Act.bind_ok hinit, if_pos rfl, Act.bind_ok hb]
    rfl
  generalize hq : (⟨rd (m1.position.x - rd (m1.length.x / 2)), rd (m1.position.y - rd (m1.length.y / 2))⟩ : Vec K) = q
  have hadd : addAtRobotPoseRd rd c l m1 = Act.bind (Act.lift (c.costmap.windowRd rd q m1.length)) (fun w =>
      match w with
      | none => Act.pure false
      | some w => Act.bind (addFromCostmap2D w l) fun _ => Act.pure true) m1 := by
    unfold addAtRobotPoseRd
    rw [if_neg (by simp [r1]), hq]
    rfl
  cases hw0 : c.costmap.worldToMapRd rd q with
  | none =>
    have hw : c.costmap.windowRd rd q m1.length = .ok none := by unfold Costmap2D.windowRd; rw [hw0]
    rw [hw] at hadd
    exact ⟨false, m1, done false hadd, c1, g1, sm1.frameId, sm1.timestamp, r1, z1, s1, posx, posy, Or.inl ⟨ly1, ex1⟩⟩
  | some xy0 =>
    obtain ⟨x0, y0⟩ := xy0
    cases hw1 : c.costmap.worldToMapRd rd ⟨rd (q.x + m1.length.x), rd (q.y + m1.length.y)⟩ with
    | none =>
      have hw : c.costmap.windowRd rd q m1.length = .ok none := by unfold Costmap2D.windowRd; rw [hw0, hw1]
      rw [hw] at hadd
      exact ⟨false, m1, done false hadd, c1, g1, sm1.frameId, sm1.timestamp, r1, z1, s1, posx, posy, Or.inl ⟨ly1, ex1⟩⟩
    | some xy1 =>
      obtain ⟨x1, y1⟩ := xy1
      -- what the lower left lookup says
      have h0 : ¬ (q.x < c.costmap.origin.x ∨ q.y < c.costmap.origin.y) ∧ x0 < c.costmap.sizeX ∧ y0 < c.costmap.sizeY ∧
          (truncToInt (rd (rd (q.x - c.costmap.origin.x) / c.costmap.resolution))).toNat = x0 ∧
          (truncToInt (rd (rd (q.y - c.costmap.origin.y) / c.costmap.resolution))).toNat = y0 := by
        unfold Costmap2D.worldToMapRd at hw0
        split at hw0
        · cases hw0
        · rename_i hn
          dsimp only at hw0
          split at hw0
          · rename_i hin
            cases hw0
            exact ⟨hn, hin.1, hin.2, rfl, rfl⟩
          · cases hw0
      have h1 : x1 < c.costmap.sizeX ∧ y1 < c.costmap.sizeY := by
        unfold Costmap2D.worldToMapRd at hw1
        split at hw1
        · cases hw1
        · dsimp only at hw1
          split at hw1
          · rename_i hin
            cases hw1
            exact hin
          · cases hw1
      obtain ⟨hn, hx0, hy0, tx, ty⟩ := h0
      push Not at hn
      obtain ⟨d, d1, d2, d3⟩ := region_cell hc.costs (x := x0) (y := y0) (nx := x1 - x0) (ny := y1 - y0) (by omega) (by omega)
      have hw : c.costmap.windowRd rd q m1.length = .ok (some ⟨x1 - x0, y1 - y0, c.costmap.resolution, q, d⟩) := by
        unfold Costmap2D.windowRd
        simp only [hw0, hw1, d1, Res.ofOption, Res.bind_ok]
      rw [hw, Act.bind_ok (show Act.lift (.ok (some _)) m1 = (.ok (some _), m1) from rfl)] at hadd
      simp only at hadd
      by_cases hsz : m1.size = ⟨((x1 - x0 : Nat) : Int), ((y1 - y0 : Nat) : Int)⟩
      swap
      · refine ⟨true, m1, done true ?_, c1, g1, sm1.frameId, sm1.timestamp, r1, z1, s1, posx, posy, Or.inl ⟨ly1, ex1⟩⟩
        rw [hadd, Act.bind_ok (show addFromCostmap2D ⟨x1 - x0, y1 - y0, c.costmap.resolution, q, d⟩ l m1 = (.ok false, m1) by
          unfold addFromCostmap2D; rw [if_pos hsz])]
        rfl
      · obtain ⟨m', e2, c2, sg, sm, ly2, -, v2⟩ := addFromCostmap2D_run
          (c := ⟨x1 - x0, y1 - y0, c.costmap.resolution, q, d⟩) d2 c1 hsz s1 l
        rw [Act.bind_ok e2] at hadd
        have hr' : m'.resolution = c.costmap.resolution := sg.resolution.trans r1
        refine ⟨true, m', ?_, c2, geoRd_of_same g1 sg, sm.frameId.trans sm1.frameId, sm.timestamp.trans sm1.timestamp, hr',
          sg.size.trans z1, sg.startIndex.trans s1, by rw [sg.position, sg.resolution]; exact posx,
          by rw [sg.position, sg.resolution]; exact posy, Or.inr ⟨rfl, ?_, fun i hi => ?_⟩⟩
        · unfold fromCostmap2DROSAtRobotPoseRd
          rw [Act.bind_ok hinit, if_pos rfl, Act.bind_ok hadd]
          rfl
        · rw [ly2, ex1, ly1]; rfl
        · rw [sg.size] at hi
          obtain ⟨v, a1, a2⟩ := v2 i hi
          obtain ⟨col, row, hcol, hrow, a3⟩ := d3 i (by rw [← hsz]; exact hi)
          simp only at a2
          rw [a3] at a2
          have nx1 : (nx : Int) = ((x1 - x0 : Nat) : Int) := by
            rw [z1] at hsz; exact congrArg Idx.x hsz
          have ny1 : (ny : Int) = ((y1 - y0 : Nat) : Int) := by
            rw [z1] at hsz; exact congrArg Idx.y hsz
          rw [← nx1] at hcol
          rw [← ny1] at hrow
          -- the corner of the window
          obtain ⟨kx, k1, k2⟩ := lookup_axis hrd r (q := q.x) (o := c.costmap.origin.x) (not_lt.2 hn.1)
          obtain ⟨ky, k3, k4⟩ := lookup_axis hrd r (q := q.y) (o := c.costmap.origin.y) (not_lt.2 hn.2)
          rw [tx] at k1
          rw [ty] at k3
          subst k1 k3
          have k2 := k2 _ hx0
          have k4 := k4 _ hy0
          have ox := origin_near hrd (pos := m1.position.x) g1.res_pos g1.size_x
          have oy := origin_near hrd (pos := m1.position.y) g1.res_pos g1.size_y
          rw [← g1.len_x, show 1 / 2 * m1.length.x = m1.length.x / 2 by ring] at ox
          rw [← g1.len_y, show 1 / 2 * m1.length.y = m1.length.y / 2 by ring] at oy
          rw [show rd (m1.position.x - rd (m1.length.x / 2)) = q.x by rw [← hq]] at ox
          rw [show rd (m1.position.y - rd (m1.length.y / 2)) = q.y by rw [← hq]] at oy
          have tX : extent m1.size.x m1.position.x m1.resolution / 2 ^ 50 ≤ m'.tolX := by
            unfold tolX
            rw [sg.size, sg.position, sg.resolution]
            refine div_le_div_of_nonneg_left ?_ (by norm_num) (by norm_num)
            unfold extent
            have : (0 : K) ≤ m1.size.x := by exact_mod_cast g1.size_x.le
            have := g1.res_pos
            positivity
          have tY : extent m1.size.y m1.position.y m1.resolution / 2 ^ 50 ≤ m'.tolY := by
            unfold tolY
            rw [sg.size, sg.position, sg.resolution]
            refine div_le_div_of_nonneg_left ?_ (by norm_num) (by norm_num)
            unfold extent
            have : (0 : K) ≤ m1.size.y := by exact_mod_cast g1.size_y.le
            have := g1.res_pos
            positivity
          have w : ∀ N : Nat, (N : K) * c.costmap.resolution / 2 ^ 50 ≤ N * c.costmap.resolution / 2 ^ 48 := fun N =>
            div_le_div_of_nonneg_left (mul_nonneg (Nat.cast_nonneg _) r.le) (by norm_num) (by norm_num)
          have wx := w c.costmap.sizeX
          have wy := w c.costmap.sizeY
          have fx : (m'.idealCentre i).x - (c.costmap.cellCentre col row).x =
              (m1.position.x - m1.size.x * m1.resolution / 2) - (c.costmap.origin.x + x0 * c.costmap.resolution) := by
            have : (col : K) = x0 + ((nx : K) - 1 - i.x) := by exact_mod_cast congrArg (Int.cast (R := K)) hcol
            simp only [idealCentre, Costmap2D.cellCentre]
            rw [sg.size, sg.position, sg.resolution, r1, this, z1]
            simp only [Int.cast_natCast]
            ring
          have fy : (m'.idealCentre i).y - (c.costmap.cellCentre col row).y =
              (m1.position.y - m1.size.y * m1.resolution / 2) - (c.costmap.origin.y + y0 * c.costmap.resolution) := by
            have : (row : K) = y0 + ((ny : K) - 1 - i.y) := by exact_mod_cast congrArg (Int.cast (R := K)) hrow
            simp only [idealCentre, Costmap2D.cellCentre]
            rw [sg.size, sg.position, sg.resolution, r1, this, z1]
            simp only [Int.cast_natCast]
            ring
          rw [abs_le] at ox oy
          refine ⟨v, col, row, a1, a2, ?_, ?_, ?_, ?_⟩
          · rw [fx, hr']; linarith [ox.1, ox.2, k2.1, k2.2]
          · rw [fx, hr']; linarith [ox.1, ox.2, k2.1, k2.2]
          · rw [fy, hr']; linarith [oy.1, oy.2, k4.1, k4.2]
          · rw [fy, hr']; linarith [oy.1, oy.2, k4.1, k4.2]

/-- The window, with the corner of the costmap's cells it consists of. -/
theorem window_exact_run {rd : K → K} (hrd : DoublePrecision rd) (hi : IntsExact rd) {u : K} (hg : GridExact rd u)
    {c : Costmap2DROS K} (hc : c.costmap.Ok) {a : Nat} {b : Idx} (hgrid : c.costmap.OnGrid u a b) {rb : Vec K}
    (hrb : c.robot = some rb) {nx ny : Nat} (hnx : 0 < nx) (hny : 0 < ny)
    (hx0 : c.costmap.origin.x + (nx + 2) * c.costmap.resolution / 2 ≤ rb.x)
    (hx1 : rb.x + (nx + 2) * c.costmap.resolution / 2 ≤ c.costmap.origin.x + c.costmap.sizeX * c.costmap.resolution)
    (hy0 : c.costmap.origin.y + (ny + 2) * c.costmap.resolution / 2 ≤ rb.y)
    (hy1 : rb.y + (ny + 2) * c.costmap.resolution / 2 ≤ c.costmap.origin.y + c.costmap.sizeY * c.costmap.resolution)
    {m : CostMap K} (hm : m.Coherent) (l : String) :
    ∃ m', fromCostmap2DROSAtRobotPoseRd rd c ⟨nx * c.costmap.resolution, ny * c.costmap.resolution⟩ l m = (.ok true, m') ∧
      m'.Coherent ∧ m'.GeoRd rd ∧ m'.frameId = c.globalFrame ∧ m'.timestamp = c.now ∧ m'.resolution = c.costmap.resolution ∧
      m'.size = ⟨nx, ny⟩ ∧ m'.startIndex = 0 ∧
      |m'.position.x - rb.x| ≤ m'.resolution / 2 + (|rb.x| + |c.costmap.origin.x| + m'.resolution) / 2 ^ 48 ∧
      |m'.position.y - rb.y| ≤ m'.resolution / 2 + (|rb.y| + |c.costmap.origin.y| + m'.resolution) / 2 ^ 48 ∧
      m'.layers = (if m.exists l then m.layers else m.layers ++ [l]) ∧
      ∃ x0 y0 : Nat, x0 + nx < c.costmap.sizeX ∧ y0 + ny < c.costmap.sizeY ∧
        m'.position = ⟨c.costmap.origin.x + x0 * c.costmap.resolution + nx * c.costmap.resolution / 2,
          c.costmap.origin.y + y0 * c.costmap.resolution + ny * c.costmap.resolution / 2⟩ ∧
        ∀ i : Idx, i.In m'.size → ∃ (v : Cost) (col row : Nat), (col : Int) = x0 + (nx - 1 - i.x) ∧
          (row : Int) = y0 + (ny - 1 - i.y) ∧ m'.at l i = .ok v ∧ c.costmap.cell col row = some v := by
  have r := hc.res
  have ha : 0 < a := by
    rcases Nat.eq_zero_or_pos a with h | h
    · have := hgrid.res; rw [h] at this; simp at this; exact absurd this r.ne'
    · exact h
  obtain ⟨x0, x1, x2, x3, x4, x5, x6, x7⟩ := window_axis_exact hrd hi hgrid.unit_pos hg ha hnx hgrid.bound_x hgrid.res hgrid.origin_x
    hx0 hx1
  obtain ⟨y0, y1, y2, y3, y4, y5, y6, y7⟩ := window_axis_exact hrd hi hgrid.unit_pos hg ha hny hgrid.bound_y hgrid.res hgrid.origin_y
    hy0 hy1
  have px : (0 : K) < nx := by exact_mod_cast hnx
  have py : (0 : K) < ny := by exact_mod_cast hny
  obtain ⟨m1, e1, c1, g1, s1, z1, r1, p1, l1, ly1, ex1, sm1⟩ := setGeometryRd_whole (rd := rd)
    (len := ⟨nx * c.costmap.resolution, ny * c.costmap.resolution⟩) r (mul_pos px r) (mul_pos py r) hnx hny
    (by rw [x4]; exact_mod_cast roundHalfAway_intCast (K := K) (nx : Int) (by omega))
    (by rw [y4]; exact_mod_cast roundHalfAway_intCast (K := K) (ny : Int) (by omega))
    ⟨windowCentreRd rd (nx * c.costmap.resolution) rb.x c.costmap.origin.x c.costmap.resolution,
      windowCentreRd rd (ny * c.costmap.resolution) rb.y c.costmap.origin.y c.costmap.resolution⟩
    (m := (m.setFrameId c.globalFrame).setTimestamp c.now) ⟨hm.nodup, hm.mem_iff, hm.dims⟩
  have hinit : initAtRobotPoseRd rd c ⟨nx * c.costmap.resolution, ny * c.costmap.resolution⟩ m = (.ok true, m1) := by
    unfold initAtRobotPoseRd
    rw [hrb]
    simp only
    rw [Act.bind_ok (show Act.modify _ m = (.ok (), _) from rfl), Act.bind_ok e1]
    rfl
  have posx : |m1.position.x - rb.x| ≤ m1.resolution / 2 + (|rb.x| + |c.costmap.origin.x| + m1.resolution) / 2 ^ 48 := by
    rw [p1, r1]; exact windowCentreRd_near hrd r
  have posy : |m1.position.y - rb.y| ≤ m1.resolution / 2 + (|rb.y| + |c.costmap.origin.y| + m1.resolution) / 2 ^ 48 := by
    rw [p1, r1]; exact windowCentreRd_near hrd r
  have qx : rd (m1.position.x - rd (m1.length.x / 2)) = c.costmap.origin.x + x0 * c.costmap.resolution := by
    rw [p1, l1]; simp only; rw [x2, x3, x5]
  have qy : rd (m1.position.y - rd (m1.length.y / 2)) = c.costmap.origin.y + y0 * c.costmap.resolution := by
    rw [p1, l1]; simp only; rw [y2, y3, y5]
  have look : ∀ k j : Nat, k < c.costmap.sizeX → j < c.costmap.sizeY → c.costmap.worldToMapRd rd
      ⟨c.costmap.origin.x + k * c.costmap.resolution, c.costmap.origin.y + j * c.costmap.resolution⟩ = some (k, j) := by
    intro k j hk hj
    obtain ⟨k1, k2⟩ := x7 k hk.le
    obtain ⟨j1, j2⟩ := y7 j hj.le
    unfold Costmap2D.worldToMapRd
    rw [if_neg (by rintro (h | h); exacts [k1 h, j1 h])]
    simp only [k2, j2]
    rw [if_pos ⟨hk, hj⟩]
  obtain ⟨d, d1, d2, d3⟩ := region_cell hc.costs (x := x0) (y := y0) (nx := nx) (ny := ny) (by omega) (by omega)
  have hw : c.costmap.windowRd rd ⟨rd (m1.position.x - rd (m1.length.x / 2)), rd (m1.position.y - rd (m1.length.y / 2))⟩ m1.length =
      .ok (some ⟨nx, ny, c.costmap.resolution,
        ⟨rd (m1.position.x - rd (m1.length.x / 2)), rd (m1.position.y - rd (m1.length.y / 2))⟩, d⟩) := by
    unfold Costmap2D.windowRd
    simp only
    rw [qx, qy, look x0 y0 (by omega) (by omega), l1]
    simp only
    rw [x3, y3, x6, y6, look _ _ x1 y1]
    simp only [Nat.add_sub_cancel_left, d1, Res.ofOption, Res.bind_ok]
  obtain ⟨m', e2, c2, sg, sm, ly2, -, v2⟩ := addFromCostmap2D_run
    (c := ⟨nx, ny, c.costmap.resolution,
      ⟨rd (m1.position.x - rd (m1.length.x / 2)), rd (m1.position.y - rd (m1.length.y / 2))⟩, d⟩) d2 c1 z1 s1 l
  have hadd : addAtRobotPoseRd rd c l m1 = (.ok true, m') := by
    unfold addAtRobotPoseRd
    rw [if_neg (by simp [r1]), hw, Act.bind_ok (show Act.lift (.ok (some _)) m1 = (.ok (some _), m1) from rfl)]
    simp only
    rw [Act.bind_ok e2]
    rfl
  refine ⟨m', ?_, c2, geoRd_of_same g1 sg, sm.frameId.trans sm1.frameId, sm.timestamp.trans sm1.timestamp, sg.resolution.trans r1,
    sg.size.trans z1, sg.startIndex.trans s1, by rw [sg.position, sg.resolution]; exact posx,
    by rw [sg.position, sg.resolution]; exact posy, by rw [ly2, ex1, ly1]; rfl, x0, y0, x1, y1, by rw [sg.position, p1, x2, y2], fun i hin => ?_⟩
  · unfold fromCostmap2DROSAtRobotPoseRd
    rw [Act.bind_ok hinit, if_pos rfl, Act.bind_ok hadd]
    rfl
  · rw [sg.size] at hin
    obtain ⟨v, a1, a2⟩ := v2 i hin
    obtain ⟨col, row, hcol, hrow, a3⟩ := d3 i (by rw [← z1]; exact hin)
    simp only at a2
    rw [a3] at a2
    exact ⟨v, col, row, by exact_mod_cast hcol, by exact_mod_cast hrow, a1, a2⟩

/-- C96, without tolerances: on costmaps whose corner and whose half cells are multiples of a unit that rounding does not change
(a power of two in `double`), and for windows of whole cells around a robot that is half a window and one cell away from the
border, the window is the one exact arithmetic gives: a layer is written, and every cell of the map has the centre and the cost of a
cell of the ROS costmap. The position of the robot is any number. -/
theorem C96_window_exact_partial {rd : K → K} (hrd : DoublePrecision rd) (hi : IntsExact rd) {u : K} (hg : GridExact rd u)
    {c : Costmap2DROS K} (hc : c.costmap.Ok) {a : Nat} {b : Idx} (hgrid : c.costmap.OnGrid u a b) {rb : Vec K}
    (hrb : c.robot = some rb) {nx ny : Nat} (hnx : 0 < nx) (hny : 0 < ny)
    (hx0 : c.costmap.origin.x + (nx + 2) * c.costmap.resolution / 2 ≤ rb.x)
    (hx1 : rb.x + (nx + 2) * c.costmap.resolution / 2 ≤ c.costmap.origin.x + c.costmap.sizeX * c.costmap.resolution)
    (hy0 : c.costmap.origin.y + (ny + 2) * c.costmap.resolution / 2 ≤ rb.y)
    (hy1 : rb.y + (ny + 2) * c.costmap.resolution / 2 ≤ c.costmap.origin.y + c.costmap.sizeY * c.costmap.resolution)
    {m : CostMap K} (hm : m.Coherent) (l : String) :
    ∃ m', fromCostmap2DROSAtRobotPoseRd rd c ⟨nx * c.costmap.resolution, ny * c.costmap.resolution⟩ l m = (.ok true, m') ∧
      m'.Coherent ∧ m'.GeoRd rd ∧ m'.frameId = c.globalFrame ∧ m'.timestamp = c.now ∧ m'.resolution = c.costmap.resolution ∧
      m'.size = ⟨nx, ny⟩ ∧ m'.startIndex = 0 ∧
      |m'.position.x - rb.x| ≤ m'.resolution / 2 + (|rb.x| + |c.costmap.origin.x| + m'.resolution) / 2 ^ 48 ∧
      |m'.position.y - rb.y| ≤ m'.resolution / 2 + (|rb.y| + |c.costmap.origin.y| + m'.resolution) / 2 ^ 48 ∧
      m'.layers = (if m.exists l then m.layers else m.layers ++ [l]) ∧
      ∀ i : Idx, i.In m'.size → ∃ (v : Cost) (col row : Nat), m'.at l i = .ok v ∧ c.costmap.cell col row = some v ∧
        m'.idealCentre i = c.costmap.cellCentre col row := by
  obtain ⟨m', e, hc', g, h1, h2, h3, h4, h5, h6, h7, h8, x0, y0, hx, hy, hp, hv⟩ := window_exact_run hrd hi hg hc hgrid hrb hnx hny hx0 hx1
    hy0 hy1 hm l
  refine ⟨m', e, hc', g, h1, h2, h3, h4, h5, h6, h7, h8, fun i hin => ?_⟩
  obtain ⟨v, col, row, hcol, hrow, a1, a2⟩ := hv i hin
  refine ⟨v, col, row, a1, a2, ?_⟩
  have ecol : (col : K) = x0 + ((nx : K) - 1 - i.x) := by exact_mod_cast congrArg (Int.cast (R := K)) hcol
  have erow : (row : K) = y0 + ((ny : K) - 1 - i.y) := by exact_mod_cast congrArg (Int.cast (R := K)) hrow
  unfold idealCentre Costmap2D.cellCentre
  rw [hp, h3, h4, ecol, erow]
  simp only [Int.cast_natCast]
  ext <;> simp only <;> ring

end

/-- Multiples of a power of two of up to 53 bits are `double`s. -/
theorem C96_double_grid (e : Int) : GridExact toDouble ((2 : ℚ) ^ e) := fun z hz =>
  binRound_exact (by norm_num) ⟨z, e, by exact_mod_cast hz, rfl⟩

namespace Demo
/-- A ROS costmap of 10 x 3 cells of a tenth; the cost of the cell in column x and row y is 10 y + x. -/
def tenthCostmap : Costmap2D ℚ := ⟨10, 3, toDouble (1 / 10), ⟨0, 0⟩, (List.range 30).map UInt8.ofNat⟩

theorem tenthCostmap_ok : tenthCostmap.Ok := ⟨by decide +kernel, by decide, by decide, by decide +kernel⟩

/-- With the robot at a position in the second row. -/
def tenthRos (x : ℚ) : Costmap2DROS ℚ := ⟨tenthCostmap, "map", some ⟨toDouble x, toDouble (3 / 20)⟩, 7⟩
end Demo

/-- D49. The tolerance of `C96_whole_partial` cannot be left out: (0.3, 0.15) is inside the cell of the costmap in column 2 and row 1,
the costmap itself looks it up there, and the map returns the cost of the next column. -/
theorem C96_false_whole : ∃ m', fromCostmap2DROSRd toDouble (Demo.tenthRos (9 / 20)) "a" (CostMap.new []) = (.ok true, m') ∧
    InsideSquare ⟨toDouble (3 / 10), toDouble (3 / 20)⟩ (Demo.tenthCostmap.cellCentre 2 1) m'.resolution ∧
    Demo.tenthCostmap.worldToMapRd toDouble ⟨toDouble (3 / 10), toDouble (3 / 20)⟩ = some (2, 1) ∧
    Demo.tenthCostmap.cell 2 1 = some 12 ∧
    m'.atPositionRd toDouble "a" ⟨toDouble (3 / 10), toDouble (3 / 20)⟩ = .ok 13 := by
  have e : (fromCostmap2DROSRd toDouble (Demo.tenthRos (9 / 20)) "a" (CostMap.new [])).1 = .ok true := by decide +kernel
  exact ⟨_, Prod.ext e rfl, by unfold InsideSquare; decide +kernel, by decide +kernel, by decide +kernel, by decide +kernel⟩

/-- D49. A window of 0.5 by 0.1 around a robot at (0.45, 0.15), on a costmap of cells of 0.1 that reaches from (0, 0) to (1, 0.3): the
call returns true and there is no layer, because the corners are looked up six columns apart. -/
theorem C96_false_no_layer : ¬ ∀ (c : Costmap2DROS ℚ) (geometry : Vec ℚ) (m' : CostMap ℚ), c.costmap.Ok →
    fromCostmap2DROSAtRobotPoseRd toDouble c geometry "a" (CostMap.new []) = (.ok true, m') → m'.exists "a" = true := by
  intro h
  have e : (fromCostmap2DROSAtRobotPoseRd toDouble (Demo.tenthRos (9 / 20)) ⟨toDouble (1 / 2), toDouble (1 / 10)⟩ "a"
    (CostMap.new [])).1 = .ok true := by decide +kernel
  have := h (Demo.tenthRos (9 / 20)) ⟨toDouble (1 / 2), toDouble (1 / 10)⟩ _ Demo.tenthCostmap_ok (Prod.ext e rfl)
  revert this
  decide +kernel

/-- D49. A window of 0.4 by 0.1 around the same robot: every cost is that of the next cell, so that the cost at the position of the
robot, half way between the borders of its cell, is wrong. -/
theorem C96_false_shifted : ∃ m', fromCostmap2DROSAtRobotPoseRd toDouble (Demo.tenthRos (9 / 20)) ⟨toDouble (2 / 5), toDouble (1 / 10)⟩
      "a" (CostMap.new []) = (.ok true, m') ∧ m'.size = ⟨4, 1⟩ ∧
    m'.atPositionRd toDouble "a" ⟨toDouble (9 / 20), toDouble (3 / 20)⟩ = .ok 13 ∧
    Demo.tenthCostmap.worldToMapRd toDouble ⟨toDouble (9 / 20), toDouble (3 / 20)⟩ = some (4, 1) ∧
    Demo.tenthCostmap.cell 4 1 = some 14 := by
  have e : (fromCostmap2DROSAtRobotPoseRd toDouble (Demo.tenthRos (9 / 20)) ⟨toDouble (2 / 5), toDouble (1 / 10)⟩ "a"
    (CostMap.new [])).1 = .ok true := by decide +kernel
  exact ⟨_, Prod.ext e rfl, by decide +kernel, by decide +kernel, by decide +kernel, by decide +kernel⟩

/-- D49. A window of 0.3 by 0.1: the quotient 0.3 / 0.1 is less than 3 in `double`, so the window is centred on a border as if it had an
even number of cells, and its cells are half a cell away from those of the costmap. -/
theorem C96_false_parity : ∃ m', fromCostmap2DROSAtRobotPoseRd toDouble (Demo.tenthRos (9 / 20)) ⟨toDouble (3 / 10), toDouble (1 / 10)⟩
      "a" (CostMap.new []) = (.ok true, m') ∧ m'.size = ⟨3, 1⟩ ∧ m'.exists "a" = true ∧
    ∀ col row : Fin 10, 9 / 20 * m'.resolution ≤ |(m'.idealCentre ⟨1, 0⟩).x - (Demo.tenthCostmap.cellCentre col row).x| := by
  have e : (fromCostmap2DROSAtRobotPoseRd toDouble (Demo.tenthRos (9 / 20)) ⟨toDouble (3 / 10), toDouble (1 / 10)⟩ "a"
    (CostMap.new [])).1 = .ok true := by decide +kernel
  exact ⟨_, Prod.ext e rfl, by decide +kernel, by decide +kernel, by decide +kernel⟩

example : ∃ m', fromCostmap2DROSRd toDouble (Demo.tenthRos (9 / 20)) "a" (CostMap.new []) = (.ok true, m') ∧
    ∃ v, Demo.tenthCostmap.cell 4 1 = some v ∧ m'.atPositionRd toDouble "a" ⟨toDouble (9 / 20), toDouble (3 / 20)⟩ = .ok v := by
  obtain ⟨m', h1, -, -, -, -, -, h2, -, -, -, -, -, h3⟩ := C96_whole_partial C73_double (c := Demo.tenthRos (9 / 20))
    Demo.tenthCostmap_ok ⟨by decide +kernel, by decide +kernel⟩ (new_coherent (ls := []) (by simp)) "a"
  refine ⟨m', h1, ?_⟩
  obtain ⟨v, v1, -, v3⟩ := h3 4 1 ⟨toDouble (9 / 20), toDouble (3 / 20)⟩ (by decide) (by decide) (by rw [h2]; decide +kernel)
    (by rw [h2]; decide +kernel)
  exact ⟨v, v1, v3⟩
example : ∃ b m', fromCostmap2DROSAtRobotPoseRd toDouble (Demo.tenthRos (9 / 20)) ⟨toDouble (2 / 5), toDouble (1 / 10)⟩ "a"
    (CostMap.new []) = (.ok b, m') ∧ m'.size = ⟨4, 1⟩ := by
  obtain ⟨b, m', h1, -, -, -, -, -, h2, -⟩ := C96_window_partial C73_double (c := Demo.tenthRos (9 / 20)) Demo.tenthCostmap_ok rfl
    (geometry := ⟨toDouble (2 / 5), toDouble (1 / 10)⟩) (by decide +kernel) (by decide +kernel) (nx := 4) (ny := 1) (by decide)
    (by decide) (by decide +kernel) (by decide +kernel) (new_coherent (ls := []) (by simp)) "a"
  exact ⟨b, m', h1, h2⟩
example : ∃ m', fromCostmap2DROSAtRobotPoseRd toDouble Demo.ros ⟨3 * (1 / 2), 2 * (1 / 2)⟩ "a" (CostMap.new []) = (.ok true, m') ∧
    m'.layers = ["a"] := by
  obtain ⟨m', h1, -, -, -, -, -, -, -, -, -, h2, -⟩ := C96_window_exact_partial C73_double toDouble_ints (C96_double_grid (-2))
    (c := Demo.ros) Demo.costmap2D_ok (a := 1) (b := ⟨-4, 8⟩)
    ⟨by norm_num, by decide +kernel, by decide +kernel, by decide +kernel, by decide +kernel, by decide +kernel⟩ rfl (nx := 3) (ny := 2)
    (by decide) (by decide) (by decide +kernel) (by decide +kernel) (by decide +kernel) (by decide +kernel)
    (new_coherent (ls := []) (by simp)) "a"
  exact ⟨m', h1, h2⟩

end CostMapModel

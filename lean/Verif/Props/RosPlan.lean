import Verif.Model.RosPlan
import Verif.Spec.RosPlan
import Verif.Props.Costmap2D
import Verif.Props.CostmapHistory
import Verif.Props.Window
import Verif.Props.MachineWindow
import Verif.Props.Fusion

/-! # C122: planning with a ROS costmap -/

set_option linter.unusedSectionVars false

namespace CostMapModel
open Inflation CostMap

section
variable {K : Type} [Field K] [LinearOrder K] [IsStrictOrderedRing K] [FloorRing K]

/-- A little room above a strict bound. -/
theorem room {ρ B : K} (hB : 0 ≤ B) (h : 2 * ρ ^ 2 < B ^ 2) : ∃ ε, 0 < ε ∧ 2 * (ρ + ε) ^ 2 ≤ B ^ 2 := by
  have hB : 0 < B := by
    rcases hB.lt_or_eq with h' | h'
    · exact h'
    · rw [← h'] at h; nlinarith [sq_nonneg ρ]
  have hρB : ρ ≤ B := abs_le_of_sq_le_sq' (by nlinarith [sq_nonneg ρ]) hB.le |>.2
  obtain ⟨d, hd⟩ : ∃ d, d = B ^ 2 - 2 * ρ ^ 2 := ⟨_, rfl⟩
  have d0 : 0 < d := by rw [hd]; linarith
  obtain ⟨e, he⟩ : ∃ e, e = d / (8 * B) := ⟨_, rfl⟩
  have he' : e * (8 * B) = d := by rw [he]; field_simp
  have e0 : 0 < e := by rw [he]; positivity
  have eB : e ≤ B := by
    by_contra hlt
    push Not at hlt
    nlinarith [sq_nonneg ρ]
  refine ⟨e, e0, ?_⟩
  nlinarith [mul_le_mul_of_nonneg_right hρB e0.le, mul_le_mul_of_nonneg_right eB e0.le]

/-- A point of a closed cell, drawn towards the centre of the cell. -/
theorem drawn {a r t : K} (ha : |a| ≤ r / 2) (t0 : 0 < t) (t1 : t ≤ 1) :
    |a * (1 - t)| ≤ r / 2 * (1 - t) ∧ |a * (1 - t) - a| ≤ t * r / 2 := by
  constructor
  · rw [abs_mul, abs_of_nonneg (by linarith : (0 : K) ≤ 1 - t)]
    exact mul_le_mul_of_nonneg_right ha (by linarith)
  · rw [show a * (1 - t) - a = -(t * a) by ring, abs_neg, abs_mul, abs_of_pos t0]
    have := mul_le_mul_of_nonneg_left ha t0.le
    linarith

variable {pop : Pop K} {hyp : Nat → Nat → K} {computer : K → Cost} {radius : K} {o : Inflater K} {c : Costmap2DROS K}

/-- The map of a ROS costmap, cell by cell. -/
theorem ros_spec (hc : c.costmap.Ok) (l : String) :
    ∃ m, (∀ rest, withRos c l rest = rest m) ∧ m.Geo ∧ m.Coherent ∧ m.startIndex = ⟨0, 0⟩ ∧ m.resolution = c.costmap.resolution ∧ m.exists l = true ∧
      (∀ p, c.costmap.StrictlyInside p → m.isInside p = true) ∧
      (∀ col row x, col < c.costmap.sizeX → row < c.costmap.sizeY → InsideSquare x (c.costmap.cellCentre col row) c.costmap.resolution →
        ∃ v, c.costmap.cell col row = some v ∧ m.atPosition l x = .ok v) ∧
      ∀ x, m.atPosition l x = .ok LETHAL_OBSTACLE → ∃ col row, c.costmap.cell col row = some LETHAL_OBSTACLE ∧ c.costmap.InCell col row x := by
  obtain ⟨m, e, mc, mg, -, mr, mz, mp, ms, ml, hat⟩ := C64_from_ros_costmap hc (new_coherent (K := K) (ls := []) (by simp)) l
  have hr := hc.res
  have hcx : m.size.x = c.costmap.sizeX := by rw [mz]
  have hcy : m.size.y = c.costmap.sizeY := by rw [mz]
  have lx : m.length.x = c.costmap.sizeX * c.costmap.resolution := by rw [mg.len_x, hcx, mr]; push_cast; rfl
  have ly : m.length.y = c.costmap.sizeY * c.costmap.resolution := by rw [mg.len_y, hcy, mr]; push_cast; rfl
  have px : m.position.x = c.costmap.origin.x + m.length.x / 2 := by rw [mp]
  have py : m.position.y = c.costmap.origin.y + m.length.y / 2 := by rw [mp]
  have hcen : ∀ col row : Nat, m.center ⟨(c.costmap.sizeX : Int) - 1 - col, (c.costmap.sizeY : Int) - 1 - row⟩ = c.costmap.cellCentre col row := by
    intro col row
    unfold CostMap.center Costmap2D.cellCentre
    rw [px, py, lx, ly, mr]
    ext <;> simp only <;> push_cast <;> ring
  have hcell : ∀ col row x, col < c.costmap.sizeX → row < c.costmap.sizeY → InsideSquare x (c.costmap.cellCentre col row) c.costmap.resolution →
      ∃ v, c.costmap.cell col row = some v ∧ m.atPosition l x = .ok v := by
    intro col row x hcol hrow hx
    have hin : (⟨(c.costmap.sizeX : Int) - 1 - col, (c.costmap.sizeY : Int) - 1 - row⟩ : Idx).In m.size := by
      refine ⟨?_, ?_, ?_, ?_⟩ <;> simp only [hcx, hcy] <;> omega
    have hq := getPosition_eq hin
    obtain ⟨-, hq'⟩ := getPosition_start_zero ms hq
    rw [hq', hcen] at hq
    obtain ⟨v, h1, h2⟩ := hat _ _ x hq (by rw [mr]; exact hx)
    refine ⟨v, ?_, h2⟩
    rw [← h1, Costmap2D.costAt_eq (col := col) (row := row) ?_ ?_ (by omega) (by omega) (by omega) (by omega)]
    · unfold Costmap2D.cell
      rw [if_pos ⟨hcol, hrow⟩]
      norm_cast
    · obtain ⟨⟨a1, a2⟩, -⟩ := hx
      rw [Int.floor_eq_iff, le_div_iff₀ hr, div_lt_iff₀ hr]
      simp only [Costmap2D.cellCentre] at a1 a2
      push_cast
      constructor <;> linarith
    · obtain ⟨-, a1, a2⟩ := hx
      rw [Int.floor_eq_iff, le_div_iff₀ hr, div_lt_iff₀ hr]
      simp only [Costmap2D.cellCentre] at a1 a2
      push_cast
      constructor <;> linarith
  refine ⟨m, fun rest => by unfold withRos; rw [e], mg, mc, ms, mr, ?_, fun p hp => ?_, hcell, fun x hlet => ?_⟩
  · refine (mc.mem_iff l).mp ?_
    rw [ml, if_neg (by simp [CostMap.exists, CostMap.new])]
    simp
  · rw [C11_inside_iff]
    obtain ⟨⟨a1, a2⟩, b1, b2⟩ := hp
    unfold Covers
    rw [px, py]
    refine ⟨⟨by linarith, ?_⟩, by linarith, ?_⟩ <;> rw [← lx] at * <;> rw [← ly] at * <;> linarith
  · obtain ⟨i, q, g1, g2, g3, g4⟩ := lethal_centre mg hlet
    obtain ⟨hin, rfl⟩ := getPosition_start_zero ms g1
    obtain ⟨i1, i2, i3, i4⟩ := hin
    rw [hcx] at i2
    rw [hcy] at i4
    obtain ⟨col, hcol⟩ : ∃ col : Nat, (col : Int) = c.costmap.sizeX - 1 - i.x := ⟨((c.costmap.sizeX : Int) - 1 - i.x).toNat, by omega⟩
    obtain ⟨row, hrow⟩ : ∃ row : Nat, (row : Int) = c.costmap.sizeY - 1 - i.y := ⟨((c.costmap.sizeY : Int) - 1 - i.y).toNat, by omega⟩
    have hii : i = ⟨(c.costmap.sizeX : Int) - 1 - col, (c.costmap.sizeY : Int) - 1 - row⟩ := by
      ext <;> simp only <;> omega
    have hce : m.center i = c.costmap.cellCentre col row := by rw [hii, hcen]
    rw [hce, mr] at g3 g4
    rw [hce] at g1
    rw [abs_sub_comm] at g3 g4
    refine ⟨col, row, ?_, g3, g4⟩
    obtain ⟨v, v1, v2⟩ := hcell col row (c.costmap.cellCentre col row) (by omega) (by omega)
      ⟨⟨by linarith, by linarith⟩, by linarith, by linarith⟩
    rw [v1]
    rw [centre_at mg g1, g2] at v2
    rw [Res.ok.inj v2]

/-- If the robot, a little larger, fits in the map, it fits in the ROS costmap. -/
theorem ros_fits {m : CostMap K} {l : String} {ρ ε : K} {p : Vec K} (hc : c.costmap.Ok) (h0 : 0 ≤ ρ) (he : 0 < ε)
    (hcell : ∀ col row x, col < c.costmap.sizeX → row < c.costmap.sizeY → InsideSquare x (c.costmap.cellCentre col row) c.costmap.resolution →
      ∃ v, c.costmap.cell col row = some v ∧ m.atPosition l x = .ok v) (h : m.RobotFits l (ρ + ε) p) : c.costmap.RobotFits ρ p := by
  intro col row hlet x hx ⟨hin1, hin2⟩
  have hr := hc.res
  have hcr : col < c.costmap.sizeX ∧ row < c.costmap.sizeY := by
    by_contra h'
    unfold Costmap2D.cell at hlet
    rw [if_neg h'] at hlet
    cases hlet
  obtain ⟨t, ht⟩ : ∃ t, t = min (1 / 2) (ε / c.costmap.resolution) := ⟨_, rfl⟩
  have t0 : 0 < t := by rw [ht]; exact lt_min (by norm_num) (div_pos he hr)
  have t1 : t ≤ 1 / 2 := by rw [ht]; exact min_le_left _ _
  have t2 : t * c.costmap.resolution ≤ ε := by
    rw [← le_div_iff₀ hr, ht]; exact min_le_right _ _
  obtain ⟨x1, x2⟩ := drawn hin1 t0 (by linarith)
  obtain ⟨y1, y2⟩ := drawn hin2 t0 (by linarith)
  have hlt : c.costmap.resolution / 2 * (1 - t) < c.costmap.resolution / 2 := by nlinarith
  obtain ⟨a1, a2⟩ := abs_lt.mp (x1.trans_lt hlt)
  obtain ⟨b1, b2⟩ := abs_lt.mp (y1.trans_lt hlt)
  obtain ⟨y, hy⟩ : ∃ y : Vec K, y = ⟨(c.costmap.cellCentre col row).x + (x.x - (c.costmap.cellCentre col row).x) * (1 - t),
      (c.costmap.cellCentre col row).y + (x.y - (c.costmap.cellCentre col row).y) * (1 - t)⟩ := ⟨_, rfl⟩
  obtain ⟨v, v1, v2⟩ := hcell col row y hcr.1 hcr.2 (by rw [hy]; exact ⟨⟨by simp only; linarith, by simp only; linarith⟩, by simp only; linarith, by simp only; linarith⟩)
  rw [hlet] at v1
  refine h y ?_ (by rw [v2, ← Option.some.inj v1])
  unfold UnderRobot at hx ⊢
  have d := offset_bound (a := y.x - x.x) (b := y.y - x.y) (q := t * c.costmap.resolution / 2)
    (by rw [hy]; simp only; convert x2 using 2; ring) (by rw [hy]; simp only; convert y2 using 2; ring) hx h0 (by positivity)
  rw [show (y.x - p.x) ^ 2 + (y.y - p.y) ^ 2 = (y.x - x.x + (x.x - p.x)) ^ 2 + (y.y - x.y + (x.y - p.y)) ^ 2 by ring]
  refine d.trans (pow_le_pow_left₀ (by positivity) (by linarith) 2)

/-- C122. A program copies a ROS costmap, inflates it and looks at one cost. At every position inside the ROS costmap there is an answer, and if it is "clear", the
robot touches no lethal cell of the ROS costmap. -/
theorem C122_fits (hc : c.costmap.Ok) (ls ld : String) (hn : radiusInCells radius c.costmap.resolution < 2 ^ 32 - 1) (hpop : PopOk pop)
    (hh : HypOk hyp (radiusInCells radius c.costmap.resolution)) (ho : Used hyp computer c.costmap.resolution o) {thr : Cost}
    (hthr : ∀ d, d ≤ c.costmap.resolution * (radiusInCells radius c.costmap.resolution : K) → thr ≤ computer d) {ρ : K} (h0 : 0 ≤ ρ)
    (h1 : 1 ≤ radiusInCells radius c.costmap.resolution)
    (hρ : 2 * ρ ^ 2 < (((radiusInCells radius c.costmap.resolution : K) - 1) * c.costmap.resolution) ^ 2) {p : Vec K} (hp : c.costmap.StrictlyInside p) :
    ∃ r, withRos c ls (inflated pop hyp ls ld radius computer o fun w => placeClear w ld thr p) = .ok r ∧ (r = true → c.costmap.RobotFits ρ p) := by
  obtain ⟨m, hm, mg, mc, ms, mr, me, mi, hcell, -⟩ := ros_spec hc ls
  have h1' : (1 : K) ≤ (radiusInCells radius c.costmap.resolution : K) := by exact_mod_cast h1
  obtain ⟨ε, e0, he⟩ := room (mul_nonneg (by linarith) hc.res.le) hρ
  rw [← mr] at hn hh ho hthr h1 he
  obtain ⟨st', e, h⟩ := C116_fits mg mc ms me ld hn hpop hh ho [] hthr h1 he
  obtain ⟨r, hr, hrt⟩ := h p (mi p hp)
  exact ⟨r, by rw [hm]; unfold inflated; rw [e]; exact hr, fun h => ros_fits hc h0 e0 hcell (hrt h)⟩

/-- C122 for a straight way. -/
theorem C122_way (norm : Vec K → K) (hc : c.costmap.Ok) (ls ld : String) (hn : radiusInCells radius c.costmap.resolution < 2 ^ 32 - 1) (hpop : PopOk pop)
    (hh : HypOk hyp (radiusInCells radius c.costmap.resolution)) (ho : Used hyp computer c.costmap.resolution o) {thr : Cost}
    (hthr : ∀ d, d ≤ c.costmap.resolution * (radiusInCells radius c.costmap.resolution : K) → thr ≤ computer d) {ρ : K} (h0 : 0 ≤ ρ)
    (h3 : 3 ≤ radiusInCells radius c.costmap.resolution)
    (hρ : 2 * ρ ^ 2 < (((radiusInCells radius c.costmap.resolution : K) - 3) * c.costmap.resolution) ^ 2) {a b : Vec K} (ha : c.costmap.StrictlyInside a)
    (hb : c.costmap.StrictlyInside b) :
    ∃ r, withRos c ls (inflated pop hyp ls ld radius computer o fun w => wayClear norm w ld thr a b) = .ok r ∧
      (r = true → ∀ p, OnWay a b p → c.costmap.RobotFits ρ p) := by
  obtain ⟨m, hm, mg, mc, ms, mr, me, mi, hcell, -⟩ := ros_spec hc ls
  have h3' : (3 : K) ≤ (radiusInCells radius c.costmap.resolution : K) := by exact_mod_cast h3
  obtain ⟨ε, e0, he⟩ := room (mul_nonneg (by linarith) hc.res.le) hρ
  rw [← mr] at hn hh ho hthr h3 he
  obtain ⟨st', e, h⟩ := C116_way norm mg mc ms me ld hn hpop hh ho [] hthr h3 he
  obtain ⟨r, hr, hrt⟩ := h a b (mi a ha) (mi b hb)
  exact ⟨r, by rw [hm]; unfold inflated; rw [e]; exact hr, fun h p hp => ros_fits hc h0 e0 hcell (hrt h p hp)⟩

/-- C122, the other way round: inside a cell whose cost is below the threshold, where a robot with a margin of a cell fits, the answer is "clear". -/
theorem C122_complete (hc : c.costmap.Ok) (ls ld : String) (hn : radiusInCells radius c.costmap.resolution < 2 ^ 32 - 1) (hpop : PopOk pop)
    (hh : HypOk hyp (radiusInCells radius c.costmap.resolution)) (ho : Used hyp computer c.costmap.resolution o) (thr : Cost) {col row : Nat} {v : Cost}
    (hv : c.costmap.cell col row = some v) (hlt : v < thr) {p : Vec K} (hp : InsideSquare p (c.costmap.cellCentre col row) c.costmap.resolution)
    (hfit : c.costmap.RobotFits (((radiusInCells radius c.costmap.resolution : K) + 1) * c.costmap.resolution) p) :
    withRos c ls (inflated pop hyp ls ld radius computer o fun w => placeClear w ld thr p) = .ok true := by
  obtain ⟨m, hm, mg, mc, ms, mr, me, mi, hcell, hback⟩ := ros_spec hc ls
  have hcr : col < c.costmap.sizeX ∧ row < c.costmap.sizeY := by
    by_contra h'
    unfold Costmap2D.cell at hv
    rw [if_neg h'] at hv
    cases hv
  obtain ⟨v', v1, v2⟩ := hcell col row p hcr.1 hcr.2 hp
  obtain rfl : v = v' := by rw [hv] at v1; exact Option.some.inj v1
  rw [← mr] at hn hh ho hfit
  obtain ⟨st', e, h⟩ := C116_complete mg mc ms me ld hn hpop hh ho [] thr
  rw [hm]
  unfold inflated
  rw [e]
  refine h p v v2 hlt fun x hx hlet => ?_
  obtain ⟨col', row', g1, g2⟩ := hback x hlet
  exact hfit col' row' g1 x hx g2

end

section
variable {K : Type} [Field K] [LinearOrder K] [IsStrictOrderedRing K] [FloorRing K]
variable {w : World K} {F : Fmt K} {rf : K → K} {pop : Pop K} {hyp : Nat → Nat → K} {computer : K → Cost} {radius : K}
  {o : Inflater K} {c : Costmap2DROS K}

/-- The map of a ROS costmap on the machine, and where its cells are. -/
theorem ros_machine_near (hrd : DoublePrecision F.rd) (hF : IntsExact F.rd) (htop : 2 ^ 31 ≤ F.top) (hw : w.Costmap c.costmap) (l : String) :
    ∃ m, (m.size = ⟨c.costmap.sizeX, c.costmap.sizeY⟩ ∧
        |m.position.x - (c.costmap.origin.x + c.costmap.sizeX * c.costmap.resolution / 2)| ≤ c.costmap.resolution / 16 ∧
        |m.position.y - (c.costmap.origin.y + c.costmap.sizeY * c.costmap.resolution / 2)| ≤ c.costmap.resolution / 16) ∧ (∀ rest, withRosI F.rd c l rest = rest m) ∧ HeldI w F rf m ∧ m.startIndex = ⟨0, 0⟩ ∧ m.resolution = c.costmap.resolution ∧
      m.exists l = true ∧ (∀ p, c.costmap.WellInside (c.costmap.resolution / 4) p → m.Clearly F.rd p) ∧
      ∀ col row x, col < c.costmap.sizeX → row < c.costmap.sizeY →
        |x.x - (c.costmap.cellCentre col row).x| ≤ c.costmap.resolution / 4 → |x.y - (c.costmap.cellCentre col row).y| ≤ c.costmap.resolution / 4 →
        m.Clearly F.rd x ∧ ∃ v, c.costmap.cell col row = some v ∧ m.atPositionI F.rd l x = .ok v := by
  have hr := hw.ok.res
  have hB : w.size ≤ 2 ^ 23 * c.costmap.resolution := w.cells.trans (by have := hw.cell; nlinarith)
  have hx := hw.high_x; have hy := hw.high_y; have hp := hw.corner
  have n0 : ∀ n : Nat, (0 : K) ≤ n := fun n => Nat.cast_nonneg n
  have cells : ∀ {n : Nat}, ((n : K) + 3) * c.costmap.resolution ≤ w.size → n ≤ 2 ^ 29 := by
    intro n h
    have : ((n : K) + 3) ≤ 2 ^ 23 := le_of_mul_le_mul_right (h.trans hB) hr
    have : (n : K) ≤ 2 ^ 29 := by linarith
    exact_mod_cast this
  have nx := mul_nonneg (n0 c.costmap.sizeX) hr.le
  have ny := mul_nonneg (n0 c.costmap.sizeY) hr.le
  have h0 : (CostMap.new [] : CostMap K).Coherent := new_coherent (by simp)
  obtain ⟨m, e, -, -, -, -, -, -, ml, hat⟩ := C107_whole_partial hrd hw h0 l
  obtain ⟨m', e', -, -, -, -, -, mr, mz, ms, p1, p2, -⟩ := C96_whole_partial hrd hw.ok ⟨by linarith [hp.1], by linarith [hp.2]⟩ h0 l
  have e'' := e
  rw [C107_whole_same hrd hr (cells hx) (cells hy), e'] at e''
  obtain rfl : m' = m := (Prod.mk.inj e'').2
  have tol : ∀ {n : Nat} {a : K}, ((n : K) + 3) * c.costmap.resolution ≤ w.size → |a| ≤ w.size →
      Costmap2D.axisTol n a c.costmap.resolution ≤ c.costmap.resolution / 16 := by
    intro n a h1 h2
    unfold Costmap2D.axisTol
    rw [div_le_iff₀ (by positivity)]
    linarith
  have t1 := tol hx hp.1
  have t2 := tol hy hp.2
  have held : HeldI w F rf m' := by
    refine .new (ls := []) (.fromCostmap c l) (by simp) trivial hw ?_
    show Call.discard (fromCostmap2DROSI F.rd _ l) _ = _
    unfold Call.discard
    rw [Act.bind_ok e]
    rfl
  have iw := held_inWorld hrd hF htop held
  rw [mr] at p1 p2
  have zx : (m'.size.x : K) = c.costmap.sizeX := by rw [mz]; simp
  have zy : (m'.size.y : K) = c.costmap.sizeY := by rw [mz]; simp
  have q1 := abs_le.mp (p1.trans t1)
  have q2 := abs_le.mp (p2.trans t2)
  have clear : ∀ p, c.costmap.WellInside (c.costmap.resolution / 4) p → m'.Clearly F.rd p := by
    rintro p ⟨⟨a1, a2⟩, b1, b2⟩
    refine clearly_of hrd iw.geo iw.tame43 ?_ ?_ <;> rw [mr] <;> rw [abs_le]
    · rw [zx]; constructor <;> linarith [q1.1, q1.2]
    · rw [zy]; constructor <;> linarith [q2.1, q2.2]
  refine ⟨m', ⟨mz, p1.trans t1, p2.trans t2⟩, fun rest => by unfold withRosI; rw [e], held, ms, mr, ?_, clear, fun col row x hcol hrow hx' hy' => ⟨clear x ?_, ?_⟩⟩
  · refine (iw.coherent.mem_iff l).mp ?_
    rw [ml, if_neg (by simp [CostMap.exists, CostMap.new])]
    simp
  · obtain ⟨a1, a2⟩ := abs_le.mp hx'
    obtain ⟨b1, b2⟩ := abs_le.mp hy'
    have k1 : ((col : K) + 1) * c.costmap.resolution ≤ c.costmap.sizeX * c.costmap.resolution :=
      mul_le_mul_of_nonneg_right (by exact_mod_cast hcol) hr.le
    have k2 : ((row : K) + 1) * c.costmap.resolution ≤ c.costmap.sizeY * c.costmap.resolution :=
      mul_le_mul_of_nonneg_right (by exact_mod_cast hrow) hr.le
    have c0 := mul_nonneg (n0 col) hr.le
    have r0 := mul_nonneg (n0 row) hr.le
    simp only [Costmap2D.cellCentre] at a1 a2 b1 b2
    refine ⟨⟨?_, ?_⟩, ?_, ?_⟩ <;> linarith
  · exact hat col row x hcol hrow (by linarith) (by linarith)

/-- The map of a ROS costmap on the machine, cell by cell. -/
theorem ros_machine (hrd : DoublePrecision F.rd) (hF : IntsExact F.rd) (htop : 2 ^ 31 ≤ F.top) (hw : w.Costmap c.costmap) (l : String) :
    ∃ m, (∀ rest, withRosI F.rd c l rest = rest m) ∧ HeldI w F rf m ∧ m.startIndex = ⟨0, 0⟩ ∧ m.resolution = c.costmap.resolution ∧
      m.exists l = true ∧ (∀ p, c.costmap.WellInside (c.costmap.resolution / 4) p → m.Clearly F.rd p) ∧
      ∀ col row x, col < c.costmap.sizeX → row < c.costmap.sizeY →
        |x.x - (c.costmap.cellCentre col row).x| ≤ c.costmap.resolution / 4 → |x.y - (c.costmap.cellCentre col row).y| ≤ c.costmap.resolution / 4 →
        m.Clearly F.rd x ∧ ∃ v, c.costmap.cell col row = some v ∧ m.atPositionI F.rd l x = .ok v := by
  obtain ⟨m, -, h⟩ := ros_machine_near (rf := rf) hrd hF htop hw l
  exact ⟨m, h⟩

/-- If the robot, larger by half a cell, fits in the map, it fits in the ROS costmap. -/
theorem ros_fitsI {m : CostMap K} {rd : K → K} {l : String} {ρ : K} {p : Vec K} (hr : 0 < c.costmap.resolution) (h0 : 0 ≤ ρ)
    (hcell : ∀ col row x, col < c.costmap.sizeX → row < c.costmap.sizeY →
      |x.x - (c.costmap.cellCentre col row).x| ≤ c.costmap.resolution / 4 → |x.y - (c.costmap.cellCentre col row).y| ≤ c.costmap.resolution / 4 →
      m.Clearly rd x ∧ ∃ v, c.costmap.cell col row = some v ∧ m.atPositionI rd l x = .ok v)
    (h : m.RobotFitsI rd l (ρ + c.costmap.resolution / 2) p) : c.costmap.RobotFits ρ p := by
  intro col row hlet x hx ⟨hin1, hin2⟩
  have hcr : col < c.costmap.sizeX ∧ row < c.costmap.sizeY := by
    by_contra h'
    unfold Costmap2D.cell at hlet
    rw [if_neg h'] at hlet
    cases hlet
  obtain ⟨x1, x2⟩ := drawn hin1 (show (0 : K) < 1 / 2 by norm_num) (by norm_num)
  obtain ⟨y1, y2⟩ := drawn hin2 (show (0 : K) < 1 / 2 by norm_num) (by norm_num)
  obtain ⟨y, hy⟩ : ∃ y : Vec K, y = ⟨(c.costmap.cellCentre col row).x + (x.x - (c.costmap.cellCentre col row).x) * (1 - 1 / 2),
      (c.costmap.cellCentre col row).y + (x.y - (c.costmap.cellCentre col row).y) * (1 - 1 / 2)⟩ := ⟨_, rfl⟩
  obtain ⟨hcl, v, v1, v2⟩ := hcell col row y hcr.1 hcr.2
    (by rw [hy]; simp only [add_sub_cancel_left]; linarith) (by rw [hy]; simp only [add_sub_cancel_left]; linarith)
  rw [hlet] at v1
  refine h y ?_ hcl (by rw [v2, ← Option.some.inj v1])
  unfold UnderRobot at hx ⊢
  have d := offset_bound (a := y.x - x.x) (b := y.y - x.y) (q := c.costmap.resolution / 4)
    (by rw [hy]; simp only; refine le_of_eq_of_le (congrArg _ ?_) (x2.trans (le_of_eq (by ring))); ring)
    (by rw [hy]; simp only; refine le_of_eq_of_le (congrArg _ ?_) (y2.trans (le_of_eq (by ring))); ring) hx h0 (by positivity)
  rw [show (y.x - p.x) ^ 2 + (y.y - p.y) ^ 2 = (y.x - x.x + (x.x - p.x)) ^ 2 + (y.y - x.y + (x.y - p.y)) ^ 2 by ring]
  refine d.trans (pow_le_pow_left₀ (by positivity) (by linarith) 2)

/-- C122 on the machine, for every ROS costmap within the world. -/
theorem C122_fits_machine (hrd : DoublePrecision F.rd) (hF : IntsExact F.rd) (htop : 2 ^ 31 ≤ F.top) (hw : w.Costmap c.costmap) (ls ld : String)
    (h0 : 0 ≤ radius) (htr : |F.rd (radius / c.costmap.resolution)| < F.top) (hn : ⌈F.rd (radius / c.costmap.resolution)⌉.toNat < 2 ^ 32 - 2)
    (hpop : PopOk pop) (hh : HypOk hyp ⌈F.rd (radius / c.costmap.resolution)⌉.toNat) (ho : UsedU F rf hyp computer c.costmap.resolution o) {n : Nat}
    (hnr : (n : K) * c.costmap.resolution ≤ radius * (1 - 1 / 2 ^ 53)) {thr : Cost}
    (hthr : ∀ i q, sqDist i q ≤ n * n → thr ≤ inflationCostRd rf hyp computer c.costmap.resolution i q) {ρ : K} (hρ0 : 0 ≤ ρ) (h2 : 2 ≤ n)
    (hρ : 2 * (ρ + c.costmap.resolution / 2) ^ 2 ≤ (((n : K) - 2) * c.costmap.resolution) ^ 2) {p : Vec K}
    (hp : c.costmap.WellInside (c.costmap.resolution / 4) p) :
    ∃ r, withRosI F.rd c ls (inflatedI F rf pop hyp ls ld radius computer o fun w => placeClearI F.rd w ld thr p) = .ok r ∧
      (r = true → c.costmap.RobotFits ρ p) := by
  obtain ⟨m, hm, mh, ms, mr, me, mi, hcell⟩ := ros_machine (rf := rf) hrd hF htop hw ls
  rw [← mr] at htr hn hh ho hnr hthr
  have hρ' : 2 * (ρ + c.costmap.resolution / 2) ^ 2 ≤ (((n : K) - 2) * m.resolution) ^ 2 := by rw [mr]; exact hρ
  obtain ⟨st', e, h⟩ := C116_fits_machine hrd hF htop mh ms me ld h0 htr hn hpop hh ho [] hnr hthr h2 hρ'
  obtain ⟨r, hr, hrt⟩ := h p (mi p hp)
  exact ⟨r, by rw [hm]; unfold inflatedI; rw [e]; exact hr, fun h => ros_fitsI hw.ok.res hρ0 hcell (hrt h)⟩

/-- C122 on the machine, for a straight way. -/
theorem C122_way_machine (hrd : DoublePrecision F.rd) (hF : IntsExact F.rd) (htop : 2 ^ 31 ≤ F.top) (hw : w.Costmap c.costmap) (ls ld : String)
    (h0 : 0 ≤ radius) (htr : |F.rd (radius / c.costmap.resolution)| < F.top) (hn : ⌈F.rd (radius / c.costmap.resolution)⌉.toNat < 2 ^ 32 - 2)
    (hpop : PopOk pop) (hh : HypOk hyp ⌈F.rd (radius / c.costmap.resolution)⌉.toNat) (ho : UsedU F rf hyp computer c.costmap.resolution o) {n : Nat}
    (hnr : (n : K) * c.costmap.resolution ≤ radius * (1 - 1 / 2 ^ 53)) {thr : Cost}
    (hthr : ∀ i q, sqDist i q ≤ n * n → thr ≤ inflationCostRd rf hyp computer c.costmap.resolution i q) {ρ : K} (hρ0 : 0 ≤ ρ) (h4 : 4 ≤ n)
    (hρ : 2 * (ρ + c.costmap.resolution / 2) ^ 2 ≤ (((n : K) - 4) * c.costmap.resolution) ^ 2) (sqrt : K → K) {a b : Vec K}
    (ha : c.costmap.WellInside (c.costmap.resolution / 4) a) (hb : c.costmap.WellInside (c.costmap.resolution / 4) b) :
    ∃ r, (∀ fuel, 1 ≤ fuel →
        withRosI F.rd c ls (inflatedI F rf pop hyp ls ld radius computer o fun w => wayClearI F.rd sqrt fuel w ld thr a b) = .ok r) ∧
      (r = true → ∀ p, OnWay a b p → c.costmap.RobotFits ρ p) := by
  obtain ⟨m, hm, mh, ms, mr, me, mi, hcell⟩ := ros_machine (rf := rf) hrd hF htop hw ls
  have hres := hw.ok.res
  rw [← mr] at htr hn hh ho hnr hthr
  have hρ' : 2 * (ρ + c.costmap.resolution / 2) ^ 2 ≤ (((n : K) - 4) * m.resolution) ^ 2 := by rw [mr]; exact hρ
  obtain ⟨st', e, h⟩ := C116_way_machine hrd hF htop mh ms me ld h0 htr hn hpop hh ho [] hnr hthr h4 hρ' sqrt
  obtain ⟨r, hr, hrt⟩ := h a b (mi a ha) (mi b hb)
  refine ⟨r, fun fuel hf => by rw [hm]; unfold inflatedI; rw [e]; exact hr fuel hf, fun h p hp => ?_⟩
  obtain ⟨t, t0, t1, rfl⟩ := hp
  have between : ∀ {lo hi a b : K}, lo ≤ a ∧ a ≤ hi → lo ≤ b ∧ b ≤ hi → lo ≤ a + t * (b - a) ∧ a + t * (b - a) ≤ hi := by
    intro lo hi a b ⟨a1, a2⟩ ⟨b1, b2⟩
    constructor <;> nlinarith
  refine ros_fitsI hres hρ0 hcell (hrt h _ ⟨t, t0, t1, ?_, ?_⟩ (mi _ ⟨between ha.1 hb.1, between ha.2 hb.2⟩)) <;>
    simp only [sub_self, abs_zero, mr] <;> positivity

end

namespace Demo

/-- A ROS costmap of ten cells in a row, the one in column 7 lethal. -/
def wallRos : Costmap2DROS ℚ := ⟨⟨10, 1, 1 / 2, ⟨-1, 2⟩, [0, 0, 0, 0, 0, 0, 0, 254, 0, 0]⟩, "map", none, 0⟩

theorem wallRos_ok : wallRos.costmap.Ok := ⟨by decide +kernel, by decide, by decide, by decide +kernel⟩

/-- A ROS costmap of ten by three cells of a tenth, the one in column 7 and row 1 lethal. -/
def tenthWall : Costmap2DROS ℚ :=
  ⟨⟨10, 3, toDouble (1 / 10), ⟨0, 0⟩, (List.range 30).map fun k => if k = 17 then 254 else 0⟩, "map", none, 0⟩

theorem tenthWall_costmap : hundred.Costmap tenthWall.costmap :=
  ⟨⟨by decide +kernel, by decide, by decide, by decide +kernel⟩, by decide +kernel, by decide +kernel, by decide +kernel, by unfold PointIn; decide +kernel⟩

end Demo

open Demo in
/-- The edges cannot be included in C122 (D67): the lower left corner of the ROS costmap belongs to its first cell, and the program throws there. -/
theorem C122_false_edge : wallRos.costmap.costAt wallRos.costmap.origin = some 0 ∧
    withRos wallRos "s" (inflated pop hyp "s" "t" 1 (fun _ => 253) Inflater.new fun w => placeClear w "t" 253 wallRos.costmap.origin) =
      .thrown .outOfRange := by
  constructor <;> decide +kernel

open Demo in
/-- The robot at (2.3, 2.2) touches the lethal cell, which reaches from 2.5 to 3, and is not found clear. -/
example : withRos wallRos "s" (inflated pop hyp "s" "t" 1 (fun _ => 253) Inflater.new fun w => placeClear w "t" 253 ⟨23 / 10, 22 / 10⟩) = .ok false := by
  have hn : radiusInCells 1 wallRos.costmap.resolution = 2 := by decide +kernel
  obtain ⟨r, hr, h⟩ := C122_fits (radius := 1) (computer := fun _ => 253) (thr := 253) (ρ := 1 / 4) wallRos_ok "s" "t" (by rw [hn]; norm_num) pop_ok (hyp_ok _)
    .new (fun _ _ => UInt8.le_refl _) (by norm_num) (by rw [hn]; norm_num) (by rw [hn]; decide +kernel) (p := ⟨23 / 10, 22 / 10⟩)
    (by unfold Costmap2D.StrictlyInside; decide +kernel)
  cases r
  · exact hr
  · exact absurd (h rfl 7 0 (by decide +kernel) ⟨5 / 2, 22 / 10⟩ (by unfold UnderRobot; norm_num)) (by unfold Costmap2D.InCell; decide +kernel)

open Demo in
/-- The way from (-0.5, 2.2) to (3.5, 2.2) leads through the lethal cell. -/
example : withRos wallRos "s" (inflated pop hyp "s" "t" 2 (fun _ => 253) Inflater.new fun w =>
    wayClear (fun v => |v.x| + |v.y|) w "t" 253 ⟨-1 / 2, 22 / 10⟩ ⟨7 / 2, 22 / 10⟩) = .ok false := by
  have hn : radiusInCells 2 wallRos.costmap.resolution = 4 := by decide +kernel
  obtain ⟨r, hr, h⟩ := C122_way (radius := 2) (computer := fun _ => 253) (thr := 253) (ρ := 1 / 4) (fun v => |v.x| + |v.y|) wallRos_ok "s" "t"
    (by rw [hn]; norm_num) pop_ok (hyp_ok _) .new (fun _ _ => UInt8.le_refl _) (by norm_num) (by rw [hn]; norm_num) (by rw [hn]; decide +kernel)
    (a := ⟨-1 / 2, 22 / 10⟩) (b := ⟨7 / 2, 22 / 10⟩) (by unfold Costmap2D.StrictlyInside; decide +kernel)
    (by unfold Costmap2D.StrictlyInside; decide +kernel)
  cases r
  · exact hr
  · exact absurd (h rfl ⟨11 / 4, 22 / 10⟩ ⟨13 / 16, by norm_num, by norm_num, by norm_num⟩ 7 0 (by decide +kernel) ⟨11 / 4, 22 / 10⟩
      (by unfold UnderRobot; norm_num)) (by unfold Costmap2D.InCell; decide +kernel)

open Demo in
/-- A free place: the robot of one cell, with its margin, fits at (0, 2.2). -/
example : withRos wallRos "s" (inflated pop hyp "s" "t" (1 / 2) (fun _ => 253) Inflater.new fun w => placeClear w "t" 253 ⟨1 / 10, 22 / 10⟩) = .ok true := by
  have hn : radiusInCells (1 / 2) wallRos.costmap.resolution = 1 := by decide +kernel
  refine C122_complete wallRos_ok "s" "t" (by rw [hn]; norm_num) pop_ok (hyp_ok _) .new 253 (col := 2) (row := 0) (v := 0) (by decide +kernel) (by decide)
    (by unfold InsideSquare; decide +kernel) ?_
  rw [hn]
  intro col row hlet x hx ⟨hin, _⟩
  have hcr : col < wallRos.costmap.sizeX ∧ row < wallRos.costmap.sizeY := by
    by_contra h'
    unfold Costmap2D.cell at hlet
    rw [if_neg h'] at hlet
    cases hlet
  change col < 10 ∧ row < 1 at hcr
  obtain rfl : row = 0 := by omega
  have hcol := (show ∀ k < 10, wallRos.costmap.cell k 0 = some LETHAL_OBSTACLE → k = 7 by decide +kernel) col hcr.1 hlet
  subst hcol
  have hce : (wallRos.costmap.cellCentre 7 0).x = 11 / 4 := by unfold Costmap2D.cellCentre wallRos; norm_num
  rw [hce, show wallRos.costmap.resolution = 1 / 2 from rfl] at hin
  unfold UnderRobot at hx
  rw [show wallRos.costmap.resolution = 1 / 2 from rfl] at hx
  have e1 := abs_le.mp (abs_le_of_sq_le_sq (show (x.x - 1 / 10) ^ 2 ≤ 1 ^ 2 by norm_num at hx; linarith [sq_nonneg (x.y - 11 / 5)]) (by norm_num))
  have e2 := abs_le.mp hin
  linarith [e1.2, e2.1]

open Demo in
/-- On the machine: the robot at (0.65, 0.15) touches the lethal cell. -/
example : withRosI toDouble tenthWall "s" (inflatedI binary64 toFloat pop (fun i j => toFloat (hypot i j)) "s" "t" (45 / 100) (fun _ => 253) Inflater.new
      fun w => placeClearI toDouble w "t" 253 ⟨13 / 20, 3 / 20⟩) = .ok false := by
  have hn : ⌈binary64.rd (45 / 100 / tenthWall.costmap.resolution)⌉.toNat = 5 := by decide +kernel
  obtain ⟨r, hr, h⟩ := C122_fits_machine (F := binary64) (rf := toFloat) (c := tenthWall) (pop := pop) (radius := 45 / 100) (computer := fun _ => 253)
    (thr := 253) (n := 4) (ρ := 8 / 100) (o := Inflater.new) (hyp := fun i j => toFloat (hypot i j)) toDouble_precision toDouble_ints top64
    tenthWall_costmap "s" "t" (by norm_num) (by decide +kernel) (by rw [hn]; norm_num) pop_ok
    (by rw [hn]; exact (C91_hypot hypot_ok _).2 (by norm_num)) .new (by decide +kernel)
    (fun _ _ _ => UInt8.le_refl _) (by norm_num) (by norm_num) (by decide +kernel) (p := ⟨13 / 20, 3 / 20⟩)
    (by unfold Costmap2D.WellInside; decide +kernel)
  cases r
  · exact hr
  · exact absurd (h rfl 7 1 (by decide +kernel) ⟨72 / 100, 3 / 20⟩ (by unfold UnderRobot; norm_num)) (by unfold Costmap2D.InCell; decide +kernel)

open Demo in
/-- On the machine: the way from (0.1, 0.15) to (0.95, 0.15) leads through the lethal cell. -/
example : withRosI toDouble tenthWall "s" (inflatedI binary64 toFloat pop (fun i j => toFloat (hypot i j)) "s" "t" (55 / 100) (fun _ => 253) Inflater.new
      fun w => wayClearI toDouble (fun x => x) 1 w "t" 253 ⟨1 / 10, 3 / 20⟩ ⟨19 / 20, 3 / 20⟩) = .ok false := by
  have hn : ⌈binary64.rd (55 / 100 / tenthWall.costmap.resolution)⌉.toNat = 6 := by decide +kernel
  obtain ⟨r, hr, h⟩ := C122_way_machine (F := binary64) (rf := toFloat) (c := tenthWall) (pop := pop) (radius := 55 / 100) (computer := fun _ => 253)
    (thr := 253) (n := 5) (ρ := 2 / 100) (o := Inflater.new) (hyp := fun i j => toFloat (hypot i j)) toDouble_precision toDouble_ints top64
    tenthWall_costmap "s" "t" (by norm_num) (by decide +kernel) (by rw [hn]; norm_num) pop_ok
    (by rw [hn]; exact (C91_hypot hypot_ok _).2 (by norm_num)) .new (by decide +kernel)
    (fun _ _ _ => UInt8.le_refl _) (by norm_num) (by norm_num) (by decide +kernel) (fun x => x) (a := ⟨1 / 10, 3 / 20⟩) (b := ⟨19 / 20, 3 / 20⟩)
    (by unfold Costmap2D.WellInside; decide +kernel) (by unfold Costmap2D.WellInside; decide +kernel)
  have hr := hr 1 (by norm_num)
  cases r
  · exact hr
  · exact absurd (h rfl ⟨15 / 20, 3 / 20⟩ ⟨13 / 17, by norm_num, by norm_num, by norm_num⟩ 7 1 (by decide +kernel) ⟨15 / 20, 3 / 20⟩
      (by unfold UnderRobot; norm_num)) (by unfold Costmap2D.InCell; decide +kernel)

end CostMapModel

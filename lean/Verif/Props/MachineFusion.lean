import Verif.Model.MachineFusion
import Verif.Props.Fusion
import Verif.Props.MachineWindow
import Verif.Props.Accumulate

/-! # C120: planning with the obstacles of another map, on the machine -/

set_option linter.unusedSectionVars false

namespace CostMapModel
open Inflation CostMap

section
variable {K : Type} [Field K] [LinearOrder K] [IsStrictOrderedRing K] [FloorRing K]
variable {w : World K} {F : Fmt K} {rf : K → K} {m other : CostMap K}

/-- One axis: the row of the map at the place of a row of the other map. -/
theorem row_in_map {r M O P c x : K} {n v k : Int} (hr : 0 < r) (hk : |O - M - k * r| ≤ r / 8) (hc : |c - (O - (v + 1 / 2) * r)| ≤ r / 32)
    (hx : |c - x| ≤ r / 2 + r / 32) (hM : M = P + n * r / 2) (hin : |x - P| ≤ n * r / 2 - 7 / 8 * r) : 0 ≤ v - k ∧ v - k < n := by
  obtain ⟨k1, k2⟩ := abs_le.mp hk
  obtain ⟨c1, c2⟩ := abs_le.mp hc
  obtain ⟨x1, x2⟩ := abs_le.mp hx
  obtain ⟨i1, i2⟩ := abs_le.mp hin
  have key : ∀ {a b : Int}, (a : K) * r < (b + 1) * r → a ≤ b := fun {a b} h => by
    have h' : (a : K) < b + 1 := lt_of_mul_lt_mul_right h hr.le
    have : (a : K) < ((b + 1 : Int) : K) := by push_cast; exact h'
    have := Int.cast_lt.mp this
    omega
  constructor
  · have := key (a := k) (b := v) (by rw [add_mul] at *; linarith)
    omega
  · have := key (a := v + 1) (b := n + k) (by push_cast; rw [add_mul, add_mul, add_mul] at *; linarith)
    omega

/-- C120 on the machine, for maps that calls can reach, of the same resolution, and whose grids agree up to an eighth of a cell: a layer of another map is
merged in, overwriting. Every valid cost of the other map, at a position at least a cell inside the map, is then in the map, at most three quarters of a cell
away. -/
theorem C120_seen_machine_partial (hrd : DoublePrecision F.rd) (hF : IntsExact F.rd) (htop : 2 ^ 31 ≤ F.top) (hm : HeldI w F rf m)
    (ho : HeldI w F rf other) (hk : ∃ k, OnGrid (m.resolution / 8) m other k) {l : String} (hl : other.exists l = true)
    (hb : ∀ k ∈ m.basicLayers, m.exists k = true ∨ k = l) :
    ∃ m', (∀ rest, fusedI F.rd other true l rest m = rest m') ∧ HeldI w F rf m' ∧ SameGeometry m m' ∧ m'.exists l = true ∧
      ∀ x c, other.Clearly F.rd x → other.atPositionI F.rd l x = .ok c → c ≠ NO_INFORMATION → WellInside m.resolution m x →
        ∃ y, m'.Clearly F.rd y ∧ m'.atPositionI F.rd l y = .ok c ∧ |y.x - x.x| ≤ 3 / 4 * m.resolution ∧ |y.y - x.y| ≤ 3 / 4 * m.resolution := by
  obtain ⟨m', e, hm', sg, -, -, mx, h⟩ := merge_step hrd hF htop hm (m := m) ⟨rfl, rfl, rfl, rfl, rfl⟩ ho hk (ls := [l]) (by simpa using hl)
    (by simpa using hb) true
  refine ⟨m', fun rest => ?_, hm', sg, (mx l).mpr (.inr (by simp)), fun x c hx hxc hne hin => ?_⟩
  · unfold Call.discard Act.bind at e
    unfold fusedI
    generalize addDataFromI F.rd other false true false [l] m = q at e
    obtain ⟨r, t⟩ := q
    cases r <;> simp [Act.pure] at e ⊢
    rw [e]
  · obtain ⟨k, hk⟩ := hk
    have hw := held_inWorld hrd hF htop hm
    have how := held_inWorld hrd hF htop ho
    have hw' := held_inWorld hrd hF htop hm'
    have hpos := hw.geo.res_pos
    obtain ⟨tx, ty⟩ := tol_small how.geo how.tame43
    rw [hk.res] at tx ty
    -- the cell of the other map
    rw [clearly_at hrd how.geo how.tame how.small hx] at hxc
    obtain ⟨j, q, ej, hj, hq, qx, qy⟩ := C74_containing_cell_partial hrd how.geo how.tame hx.inside hx.x hx.y
    rw [ej] at hxc
    rw [hk.res] at qx qy
    obtain ⟨q', hq', -, -, cx, cy⟩ := centre_clearly hrd how.geo how.tame43 how.small hj
    obtain rfl : q = q' := by rw [hq] at hq'; exact Option.some.inj hq'
    rw [hk.res] at cx cy
    have qx' : |q.x - x.x| ≤ m.resolution / 2 + m.resolution / 32 := by rw [abs_sub_comm]; linarith
    have qy' : |q.y - x.y| ≤ m.resolution / 2 + m.resolution / 32 := by rw [abs_sub_comm]; linarith
    -- the cell of the map
    have ax := axis43_x hw.geo hw.tame43
    have ay := axis43_y hw.geo hw.tame43
    obtain ⟨-, lx2⟩ := abs_le.mp (ax.len_err hrd)
    obtain ⟨-, ly2⟩ := abs_le.mp (ay.len_err hrd)
    obtain ⟨u1, u2⟩ := row_in_map hpos hk.x cx qx' (M := m.corner.x) (P := m.position.x) (n := m.size.x) rfl
      (hin.x.trans (by linarith [tame_unit ax hw.tame43.x]))
    obtain ⟨v1, v2⟩ := row_in_map hpos hk.y cy qy' (M := m.corner.y) (P := m.position.y) (n := m.size.y) rfl
      (hin.y.trans (by linarith [tame_unit ay hw.tame43.y]))
    obtain ⟨u, hu⟩ : ∃ u : Idx, u = ⟨(other.logical j).x - k.x, (other.logical j).y - k.y⟩ := ⟨_, rfl⟩
    have hin' : u.In m.size := by rw [hu]; exact ⟨u1, u2, v1, v2⟩
    have hbi := bufferIdx_in hin' hw.geo.start
    have hlog : m.logical (bufferIdx u m.size m.startIndex) = u := by rw [logical_eq_unwrap hbi, unwrap_buffer hin' hw.geo.start]
    have hat := (h l _ hbi).1 c (by simp) (.inl rfl) ⟨k, j, hk, ⟨hj, by rw [hlog, hu]; ext <;> simp⟩, hxc, hne⟩
    obtain ⟨y, -, hyc, hyat, yx, yy⟩ := centre_clearly hrd hw'.geo hw'.tame43 hw'.small (i := bufferIdx u m.size m.startIndex) (by rw [sg.size]; exact hbi)
    have hl' : m'.logical (bufferIdx u m.size m.startIndex) = u :=
      (by unfold logical; rw [sg.size, sg.startIndex] : m'.logical _ = m.logical _).trans hlog
    have hcorner : m'.corner = m.corner := by unfold corner; rw [sg.position, sg.size, sg.resolution]
    rw [hl', sg.resolution, hcorner, hu] at yx yy
    refine ⟨y, hyc, by rw [hyat, hat], ?_, ?_⟩
    · have kx := hk.x
      push_cast at yx
      rw [abs_le] at *
      constructor <;> linarith [yx.1, yx.2, kx.1, kx.2, cx.1, cx.2, qx'.1, qx'.2]
    · have ky := hk.y
      push_cast at yy
      rw [abs_le] at *
      constructor <;> linarith [yy.1, yy.2, ky.1, ky.2, cy.1, cy.2, qy'.1, qy'.2]

variable {pop : Pop K} {hyp : Nat → Nat → K} {radius : K} {computer : K → Cost} {o : Inflater K}

/-- C120 on the machine, for grids as above: cut a window out of the merged map, inflate it and look at one cost. If the answer is "clear", no obstacle of the
other map is under the robot, as far as the robot is in the window, and in the map by a cell. -/
theorem C120_fits_machine_partial (hrd : DoublePrecision F.rd) (hF : IntsExact F.rd) (htop : 2 ^ 31 ≤ F.top) (hm : HeldI w F rf m)
    (hoth : HeldI w F rf other) (hk : ∃ k, OnGrid (m.resolution / 8) m other k) {ls : String} (hl : other.exists ls = true)
    (hb : ∀ k ∈ m.basicLayers, m.exists k = true ∨ k = ls) (ld : String) (h0 : 0 ≤ radius)
    (htr : |F.rd (radius / m.resolution)| < F.top) (hn : ⌈F.rd (radius / m.resolution)⌉.toNat < 2 ^ 32 - 2) (hpop : PopOk pop)
    (hh : HypOk hyp ⌈F.rd (radius / m.resolution)⌉.toNat) (ho : UsedU F rf hyp computer m.resolution o) {n : Nat}
    (hnr : (n : K) * m.resolution ≤ radius * (1 - 1 / 2 ^ 53)) {thr : Cost}
    (hthr : ∀ i q, sqDist i q ≤ n * n → thr ≤ inflationCostRd rf hyp computer m.resolution i q) {ρ : K} (h2 : 2 ≤ n) (hρ0 : 0 ≤ ρ)
    (hρ : 2 * (ρ + 9 / 4 * m.resolution) ^ 2 ≤ (((n : K) - 2) * m.resolution) ^ 2)
    {pos len : Vec K} (hp : PointIn w.size pos) (hr : RequestOkRd F.rd m pos len) (hcen : CentreOkRd F.rd m pos len)
    {p : Vec K} (hpw : m.WellInWindow F.rd pos len p) (hpi : WellInside (m.resolution / 4) m p) :
    ∃ r, fusedI F.rd other true ls (fun m' =>
        inWindowI F.rd m' pos len (inflatedI F rf pop hyp ls ld radius computer o fun w => placeClearI F.rd w ld thr p)) m = .ok r ∧
      (r = true → (∀ x, UnderRobot (ρ + 5 / 4 * m.resolution) p x → m.Clearly F.rd x → m.WellInWindow F.rd pos len x) →
        ∀ x, UnderRobot ρ p x → other.Clearly F.rd x → WellInside m.resolution m x → other.atPositionI F.rd ls x ≠ .ok LETHAL_OBSTACLE) := by
  have hres := (held_inWorld hrd hF htop hm).geo.res_pos
  obtain ⟨m', e, hm', sg, hl', hseen⟩ := C120_seen_machine_partial hrd hF htop hm hoth hk hl hb
  have tolx : m'.tolX = m.tolX := by unfold tolX; rw [sg.size, sg.position, sg.resolution]
  have toly : m'.tolY = m.tolY := by unfold tolY; rw [sg.size, sg.position, sg.resolution]
  have hr' : RequestOkRd F.rd m' pos len :=
    ⟨by rw [sg.size, sg.resolution, sg.position]; exact hr.high_x, by rw [sg.size, sg.resolution, sg.position]; exact hr.high_y,
      by rw [sg.size, sg.resolution, sg.position]; exact hr.low_x, by rw [sg.size, sg.resolution, sg.position]; exact hr.low_y⟩
  have hcen' : CentreOkRd F.rd m' pos len :=
    ⟨by rw [sg.size, sg.resolution, sg.position, tolx]; exact hcen.map_x, by rw [sg.size, sg.resolution, sg.position, toly]; exact hcen.map_y,
      by rw [tolx]; exact hcen.high_x, by rw [toly]; exact hcen.high_y, by rw [tolx]; exact hcen.low_x, by rw [toly]; exact hcen.low_y⟩
  have hww : ∀ x, m'.WellInWindow F.rd pos len x ↔ m.WellInWindow F.rd pos len x := fun x => by unfold WellInWindow; rw [sg.resolution]
  obtain ⟨-, -, -, -, -, hcl⟩ := same_machine (rd := F.rd) (m := m') (m' := m) ⟨sg.length.symm, sg.resolution.symm, sg.position.symm, sg.size.symm, sg.startIndex.symm⟩
  obtain ⟨r, h1, h⟩ := C119_fits_machine (m := m') (o := o) (ρ := ρ + 5 / 4 * m.resolution) hrd hF htop hm' hl' ld h0 (by rw [sg.resolution]; exact htr)
    (by rw [sg.resolution]; exact hn) hpop (by rw [sg.resolution]; exact hh) (by rw [sg.resolution]; exact ho) (by rw [sg.resolution]; exact hnr)
    (by rw [sg.resolution]; exact hthr) h2 (by linarith)
    (by rw [sg.resolution, show ρ + 5 / 4 * m.resolution + m.resolution = ρ + 9 / 4 * m.resolution by ring]; exact hρ) hp hr' hcen'
    ((hww p).mpr hpw) ⟨by rw [sg.position, sg.length, sg.resolution]; exact hpi.x, by rw [sg.position, sg.length, sg.resolution]; exact hpi.y⟩
  refine ⟨r, by rw [e]; exact h1, fun hrt hin x hxr hxc hxi hlet => ?_⟩
  obtain ⟨y, hyc, hy, d1, d2⟩ := hseen x _ hxc hlet (by decide) hxi
  refine h hrt (fun z hz hzc => (hww z).mpr (hin z hz (hcl z hzc))) y ?_ hyc hy
  unfold UnderRobot at hxr ⊢
  have hd := offset_bound d1 d2 hxr hρ0 (by linarith)
  have e : (y.x - p.x) ^ 2 + (y.y - p.y) ^ 2 = (y.x - x.x + (x.x - p.x)) ^ 2 + (y.y - x.y + (x.y - p.y)) ^ 2 := by ring
  rw [e]
  exact hd.trans (pow_le_pow_left₀ (by linarith) (by linarith) 2)

end

namespace Demo

theorem tenths_request : RequestOkRd binary64.rd tenths ⟨2 / 10, -1 / 10⟩ ⟨6 / 10, 7 / 10⟩ :=
  ⟨by decide +kernel, by decide +kernel, by decide +kernel, by decide +kernel⟩

theorem tenths_centre : CentreOkRd binary64.rd tenths ⟨2 / 10, -1 / 10⟩ ⟨6 / 10, 7 / 10⟩ :=
  ⟨by decide +kernel, by decide +kernel, by decide +kernel, by decide +kernel, by decide +kernel, by decide +kernel⟩

/-- A robot of 7 cm at (0.2, -0.2), and the cells around it, are in that window. -/
theorem tenths_in : ∀ x, UnderRobot (7 / 100 + 5 / 4 * tenths.resolution) ⟨2 / 10, -2 / 10⟩ x →
    tenths.WellInWindow binary64.rd ⟨2 / 10, -1 / 10⟩ ⟨6 / 10, 7 / 10⟩ x := by
  intro x hx
  have hR : (7 / 100 + 5 / 4 * tenths.resolution) ^ 2 ≤ (2 / 10) ^ 2 := by decide +kernel
  unfold UnderRobot at hx
  simp only at hx
  have e1 := abs_le.mp (abs_le_of_sq_le_sq (show (x.x - 2 / 10) ^ 2 ≤ (2 / 10) ^ 2 by linarith [sq_nonneg (x.y - -2 / 10)]) (by norm_num))
  have e2 := abs_le.mp (abs_le_of_sq_le_sq (show (x.y - -2 / 10) ^ 2 ≤ (2 / 10) ^ 2 by linarith [sq_nonneg (x.x - 2 / 10)]) (by norm_num))
  have l1 : (lowRd binary64.rd (⟨2 / 10, -1 / 10⟩ : Vec ℚ) ⟨6 / 10, 7 / 10⟩).x + tenths.resolution / 4 ≤ 0 := by decide +kernel
  have l2 : (4 / 10 : ℚ) ≤ (highRd binary64.rd (⟨2 / 10, -1 / 10⟩ : Vec ℚ) ⟨6 / 10, 7 / 10⟩).x - tenths.resolution / 4 := by decide +kernel
  have l3 : (lowRd binary64.rd (⟨2 / 10, -1 / 10⟩ : Vec ℚ) ⟨6 / 10, 7 / 10⟩).y + tenths.resolution / 4 ≤ -4 / 10 := by decide +kernel
  have l4 : (0 : ℚ) ≤ (highRd binary64.rd (⟨2 / 10, -1 / 10⟩ : Vec ℚ) ⟨6 / 10, 7 / 10⟩).y - tenths.resolution / 4 := by decide +kernel
  exact ⟨⟨l1.trans (by linarith [e1.1]), le_trans (by linarith [e1.2]) l2⟩, l3.trans (by linarith [e2.1]), le_trans (by linarith [e2.2]) l4⟩

theorem tenths_on_grid : OnGrid (tenths.resolution / 8) tenths turnedPillar ⟨0, 0⟩ :=
  ⟨by decide +kernel, by decide +kernel, by decide +kernel⟩

end Demo

open Demo in
/-- The free map of cells of 0.1 takes the obstacle at (0.3, -0.2) over from the map whose buffer starts at cell (2, 5): it is seen near (0.26, -0.2), and a robot
of 7 cm at (0.2, -0.2) is found not to fit. -/
example : (∃ m' y, (∀ rest, fusedI toDouble turnedPillar true "a" rest tenths = rest m') ∧ m'.atPositionI toDouble "a" y = .ok LETHAL_OBSTACLE ∧
      |y.x - 26 / 100| ≤ 3 / 4 * tenths.resolution) ∧
    fusedI toDouble turnedPillar true "a" (fun m' => inWindowI toDouble m' ⟨2 / 10, -1 / 10⟩ ⟨6 / 10, 7 / 10⟩ (inflatedI binary64 toFloat pop
      (fun i j => toFloat (hypot i j)) "a" "t" (15 / 20) (fun _ => 253) Inflater.new fun w => placeClearI toDouble w "t" 253 ⟨2 / 10, -2 / 10⟩)) tenths =
      .ok false := by
  have hlet : turnedPillar.atPositionI toDouble "a" ⟨26 / 100, -2 / 10⟩ = .ok LETHAL_OBSTACLE := by decide +kernel
  constructor
  · obtain ⟨m', e, -, -, -, h⟩ := C120_seen_machine_partial (F := binary64) (rf := toFloat) toDouble_precision toDouble_ints top64 tenths_held turnedPillar_held
      ⟨_, tenths_on_grid⟩ (l := "a") (by decide +kernel) (by decide +kernel)
    obtain ⟨y, -, hy, d, -⟩ := h ⟨26 / 100, -2 / 10⟩ _ (turnedPillar_clearly _ _ (by decide +kernel)) hlet (by decide) ⟨by decide +kernel, by decide +kernel⟩
    exact ⟨m', y, e, hy, d⟩
  have hn : ⌈binary64.rd (15 / 20 / tenths.resolution)⌉.toNat = 8 := by decide +kernel
  obtain ⟨r, h1, h2⟩ := C120_fits_machine_partial (F := binary64) (rf := toFloat) (radius := 15 / 20) (computer := fun _ => 253) (thr := 253)
    (n := 7) (ρ := 7 / 100) toDouble_precision toDouble_ints top64 tenths_held turnedPillar_held ⟨_, tenths_on_grid⟩ (ls := "a") (by decide +kernel)
    (by decide +kernel) "t" (by norm_num) (by decide +kernel) (by rw [hn]; norm_num) pop_ok
    (by rw [hn]; exact (C91_hypot hypot_ok _).2 (by norm_num)) .new
    (by decide +kernel) (fun _ _ _ => UInt8.le_refl _) (by norm_num) (by norm_num) (by decide +kernel) (by unfold PointIn; decide +kernel)
    tenths_request tenths_centre (p := ⟨2 / 10, -2 / 10⟩) (tenths_in _ (by unfold UnderRobot; decide +kernel)) ⟨by decide +kernel, by decide +kernel⟩
  cases r
  · exact h1
  · exact absurd hlet (h2 rfl (fun x hx _ => tenths_in x hx) ⟨26 / 100, -2 / 10⟩ (by unfold UnderRobot; norm_num)
      (turnedPillar_clearly _ _ (by decide +kernel)) ⟨by decide +kernel, by decide +kernel⟩)

end CostMapModel

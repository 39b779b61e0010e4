import Verif.Props.MachinePlace
import Verif.Props.MachineWindow
import Verif.Props.GridPlan

/-! # C116 and C124 on the machine: where the robot fits, the answer is "clear" -/

set_option linter.unusedSectionVars false

namespace CostMapModel
open Inflation CostMap

section
variable {K : Type} [Field K] [LinearOrder K] [IsStrictOrderedRing K] [FloorRing K]
variable {w : World K} {F : Fmt K} {rf : K → K} {pop : Pop K} {hyp : Nat → Nat → K} {computer : K → Cost} {radius : K} {m : CostMap K}
  {o : Inflater K}

/-- How far two positions can be apart whose cells are apart by less than `A`. -/
theorem apart_lt {r a b u v A : K} (hr : 0 < r) (hA : 0 ≤ A) (hu : |u| ≤ (|a| + 17 / 16) * r) (hv : |v| ≤ (|b| + 17 / 16) * r)
    (h : (a ^ 2 + b ^ 2) * r ^ 2 < A ^ 2) : u ^ 2 + v ^ 2 ≤ (A + 2 * r) ^ 2 := by
  have ha := abs_nonneg a
  have hb := abs_nonneg b
  rw [← sq_abs a, ← sq_abs b] at h
  generalize |a| = a at *
  generalize |b| = b at *
  have hu2 : u ^ 2 ≤ ((a + 17 / 16) * r) ^ 2 := by rw [← sq_abs u]; exact pow_le_pow_left₀ (abs_nonneg u) hu 2
  have hv2 : v ^ 2 ≤ ((b + 17 / 16) * r) ^ 2 := by rw [← sq_abs v]; exact pow_le_pow_left₀ (abs_nonneg v) hv 2
  have hsum : (a + b) * r ≤ 3 / 2 * A := by
    refine (pow_le_pow_iff_left₀ (by positivity) (by positivity) two_ne_zero).mp ?_
    nlinarith [sq_nonneg ((a - b) * r), sq_nonneg A]
  nlinarith [mul_pos hr hr, mul_le_mul_of_nonneg_left hsum hr.le, mul_nonneg hA hr.le]

/-- C116 on the machine, the other way round: at a position clearly inside the map, with a cost below the threshold, where a robot fits that is
larger than the radius of inflation by three cells and a rounding error, the answer is "clear". -/
theorem C116_complete_machine (hrd : DoublePrecision F.rd) (hF : IntsExact F.rd) (htop : 2 ^ 31 ≤ F.top) (hm : HeldI w F rf m)
    (hs : m.startIndex = ⟨0, 0⟩) {ls : String} (hls : m.exists ls = true) (ld : String) (h0 : 0 ≤ radius)
    (htr : |F.rd (radius / m.resolution)| < F.top) (hn : ⌈F.rd (radius / m.resolution)⌉.toNat < 2 ^ 32 - 2) (hpop : PopOk pop)
    (hh : HypOk hyp ⌈F.rd (radius / m.resolution)⌉.toNat) (ho : UsedU F rf hyp computer m.resolution o) (log : List Idx) (thr : Cost) :
    ∃ st', inflateU F rf pop hyp ls ld (.fin radius) computer ⟨o, m, log⟩ = (.ok (), st') ∧
      ∀ p v, m.Clearly F.rd p → m.atPositionI F.rd ls p = .ok v → v < thr →
        m.RobotFitsI F.rd ls (radius * (1 + 1 / 2 ^ 53) + 3 * m.resolution) p → placeClearI F.rd st'.map ld thr p = .ok true := by
  have hw := held_inWorld hrd hF htop hm
  have hX : m.size.x < 2 ^ 31 := lt_of_le_of_lt hw.small.x (by norm_num)
  have hY : m.size.y < 2 ^ 31 := lt_of_le_of_lt hw.small.y (by norm_num)
  obtain ⟨st', h1, hgeo, -, -, -, hat⟩ := C94_reach_partial hF hrd hw.coherent hX hY hw.geo.res_pos hls ld h0 htr hn hpop hh ho log
  obtain ⟨s1, s2, s3, s4, s5, s6⟩ := same_machine (rd := F.rd) hgeo
  refine ⟨st', h1, fun p v hp hv hlt hfit => ?_⟩
  obtain ⟨hin, ⟨p1, p2⟩, p3, p4⟩ := clearly_cell hrd hw.geo hw.tame43 hs hp
  rw [clearly_at hrd hw.geo hw.tame hw.small hp] at hv
  have hread : st'.map.atPositionI F.rd ld p = st'.map.at ld (m.getIndexRd F.rd p).1 := by
    rw [clearly_at hrd (s1 hw.geo) (tame_of_tame43 (s1 hw.geo) (s2 hw.tame43)) (s3 hw.small) (s6 p hp), s5]
  unfold placeClearI
  rw [hread]
  rcases hat _ v hin hv with h | ⟨q, hq, hd, -⟩
  · rw [h, Res.bind_ok, decide_eq_true hlt]
  exfalso
  obtain ⟨x, x1, x2, x3, -⟩ := centre_clearly hrd hw.geo hw.tame43 hw.small hq.1
  obtain ⟨x', x1', -, x4⟩ := C73_round_trip hrd hw.geo hw.tame hq.1
  obtain rfl : x = x' := by rw [x1] at x1'; exact Option.some.inj x1'
  refine hfit x ?_ x2 (by rw [x3]; exact hq.2)
  obtain ⟨-, ⟨q1, q2⟩, q3, q4⟩ := clearly_cell hrd hw.geo hw.tame43 hs x2
  rw [x4] at q1 q2 q3 q4
  have hr := hw.geo.res_pos
  have near : ∀ (c u z : K) (i j : Int), (i : K) - 1 / 32 ≤ (c - u) / m.resolution → (c - u) / m.resolution ≤ i + 1 + 1 / 32 →
      (j : K) - 1 / 32 ≤ (c - z) / m.resolution → (c - z) / m.resolution ≤ j + 1 + 1 / 32 → |z - u| ≤ (|(i : K) - j| + 17 / 16) * m.resolution := by
    intro c u z i j a1 a2 a3 a4
    have e : z - u = ((c - u) / m.resolution - (c - z) / m.resolution) * m.resolution := by field_simp; ring
    rw [e, abs_mul, abs_of_pos hr]
    refine mul_le_mul_of_nonneg_right ?_ hr.le
    rw [abs_le]
    constructor <;> linarith [neg_abs_le ((i : K) - j), le_abs_self ((i : K) - j)]
  have nx := near _ _ _ _ _ p1 p2 q1 q2
  have ny := near _ _ _ _ _ p3 p4 q3 q4
  have hsq : ((sqDist (m.getIndexRd F.rd p).1 q : Nat) : K) = (((m.getIndexRd F.rd p).1.x : K) - q.x) ^ 2 + (((m.getIndexRd F.rd p).1.y : K) - q.y) ^ 2 := by
    unfold sqDist
    push_cast
    rw [Nat.cast_natAbs, Nat.cast_natAbs, Int.cast_abs, Int.cast_abs, abs_mul_abs_self, abs_mul_abs_self]
    push_cast
    ring
  rw [hsq] at hd
  have := apart_lt hr (add_nonneg (mul_nonneg h0 (by positivity)) hr.le) nx ny hd
  unfold UnderRobot
  rw [show radius * (1 + 1 / 2 ^ 53) + 3 * m.resolution = radius * (1 + 1 / 2 ^ 53) + m.resolution + 2 * m.resolution by ring]
  exact this

/-- C124 on the machine, the other way round: near the centre of a cell with a cost below inscribed, where a robot fits that is larger than the radius
of inflation by three cells and a rounding error, every reader finds the grid to say free. -/
theorem C124_complete_machine_partial (hrd : DoublePrecision F.rd) (hF : IntsExact F.rd) (htop : 2 ^ 31 ≤ F.top) (hm : HeldI w F rf m)
    (hs : m.startIndex = ⟨0, 0⟩) (hcells : m.size.x * m.size.y < 2 ^ 31) (ht : m.timestamp < 2 ^ 32 * 1000000000)
    (hrf : |rf m.resolution - m.resolution| ≤ m.resolution / 2 ^ 24) {ls : String} (hls : m.exists ls = true) (ld : String) (h0 : 0 ≤ radius)
    (hrw : radius ≤ w.size)
    (htr : |F.rd (radius / m.resolution)| < F.top) (hn : ⌈F.rd (radius / m.resolution)⌉.toNat < 2 ^ 32 - 2) (hpop : PopOk pop)
    (hh : HypOk hyp ⌈F.rd (radius / m.resolution)⌉.toNat) (ho : UsedU F rf hyp computer m.resolution o) (old : List Int) :
    ∃ g, inflatedGridI F rf pop hyp ls ld radius computer o old m = .ok g ∧
      ∀ i p v, i.In m.size → |p.x - (m.idealCentre i).x| ≤ m.resolution / 2 - m.gridTolX → |p.y - (m.idealCentre i).y| ≤ m.resolution / 2 - m.gridTolY →
        m.Clearly F.rd p → m.atPositionI F.rd ls p = .ok v → v < INSCRIBED_OBSTACLE →
        m.RobotFitsI F.rd ls (radius * (1 + 1 / 2 ^ 53) + 3 * m.resolution) p → ∀ rq, DoublePrecision rq → g.SaysFreeRd rq p := by
  obtain ⟨st', e, h⟩ := C116_complete_machine hrd hF htop hm hs hls ld h0 htr hn hpop hh ho [] INSCRIBED_OBSTACLE
  obtain ⟨g, g1, -, g2⟩ := grid_machine hrd hF htop hm hs hcells ht hrf hls ld h0 hrw htr hn hpop hh ho old e
  refine ⟨g, g1, fun i p v hi hx hy hp hv hlt hfit rq hrq => ?_⟩
  obtain ⟨u, u1, u2⟩ := g2 i p hi hx hy
  refine ⟨_, u2 rq hrq, (free_iff u).mpr ?_⟩
  have := h p v hp hv hlt hfit
  unfold placeClearI at this
  rw [u1] at this
  exact of_decide_eq_true (Res.ok.inj this)

end

namespace Demo

theorem tenthPillar_lethal {i : Idx} (h : i.In tenthPillar.size) (hl : tenthPillar.at "a" i = .ok LETHAL_OBSTACLE) : i = ⟨3, 3⟩ := by
  have hall : ∀ a b : Fin 7, tenthPillar.at "a" ⟨(a.val : Int), (b.val : Int)⟩ = .ok LETHAL_OBSTACLE → a = 3 ∧ b = 3 := by decide +kernel
  have hsz : tenthPillar.size = ⟨7, 7⟩ := by decide +kernel
  rw [hsz] at h
  obtain ⟨h1, h2, h3, h4⟩ := h
  simp only at h2 h4
  obtain ⟨x, y⟩ := i
  simp only at h1 h2 h3 h4
  have := hall ⟨x.toNat, by omega⟩ ⟨y.toNat, by omega⟩ (by
    simp only [Int.toNat_of_nonneg h1, Int.toNat_of_nonneg h3]; exact hl)
  have e1 := congrArg Fin.val this.1
  have e2 := congrArg Fin.val this.2
  simp only [show ((3 : Fin 7) : Nat) = 3 from rfl] at e1 e2
  rw [show x = 3 by omega, show y = 3 by omega]

/-- A robot of radius 0.31 fits at (0.4, 0.3). -/
theorem tenthPillar_fits : tenthPillar.RobotFitsI binary64.rd "a" (1 / 100 * (1 + 1 / 2 ^ 53) + 3 * tenthPillar.resolution) ⟨2 / 5, 3 / 10⟩ := by
  have hw := held_inWorld (F := binary64) toDouble_precision toDouble_ints top64 tenthPillar_held
  intro x hx hxc hlet
  have hs : tenthPillar.startIndex = ⟨0, 0⟩ := by decide +kernel
  rw [clearly_at (rd := binary64.rd) toDouble_precision hw.geo hw.tame hw.small hxc] at hlet
  obtain ⟨hin, ⟨q1, q2⟩, q3, q4⟩ := clearly_cell (rd := binary64.rd) toDouble_precision hw.geo hw.tame43 hs hxc
  rw [tenthPillar_lethal hin hlet] at q1 q2 q3 q4
  have hr := hw.geo.res_pos
  have hcx : tenthPillar.corner.x ≤ 4501 / 10000 := by decide +kernel
  have hcy : tenthPillar.corner.y ≤ 3501 / 10000 := by decide +kernel
  have hr1 : 999 / 10000 ≤ tenthPillar.resolution := by decide +kernel
  have hr2 : tenthPillar.resolution ≤ 1001 / 10000 := by decide +kernel
  rw [le_div_iff₀ hr] at q1 q3
  have hX : x.x ≤ 155 / 1000 := by push_cast at q1; linarith
  have hY : x.y ≤ 55 / 1000 := by push_cast at q3; linarith
  unfold UnderRobot at hx
  simp only at hx
  have h3 : (1 / 100 * (1 + 1 / 2 ^ 53) + 3 * tenthPillar.resolution) ^ 2 ≤ (311 / 1000) ^ 2 :=
    pow_le_pow_left₀ (by positivity) (by norm_num; linarith) 2
  nlinarith

end Demo

open Demo in
/-- The map of 7 x 7 cells of 0.1 with an obstacle at (0.1, 0), inflated by 0.01 m: the check says "clear" at (0.4, 0.3), and the published grid says free. -/
example : (∃ st', inflateU binary64 toFloat pop (fun i j => toFloat (hypot i j)) "a" "t" (.fin (1 / 100)) (fun _ => 253)
      ⟨Inflater.new, tenthPillar, []⟩ = (.ok (), st') ∧ placeClearI toDouble st'.map "t" 253 ⟨2 / 5, 3 / 10⟩ = .ok true) ∧
    ∃ g, inflatedGridI binary64 toFloat pop (fun i j => toFloat (hypot i j)) "a" "t" (1 / 100) (fun _ => 253) Inflater.new [] tenthPillar = .ok g ∧
      g.SaysFreeRd toDouble ⟨2 / 5, 3 / 10⟩ := by
  have hn : ⌈binary64.rd (1 / 100 / tenthPillar.resolution)⌉.toNat = 1 := by decide +kernel
  have hs : tenthPillar.startIndex = ⟨0, 0⟩ := by decide +kernel
  have cl := tenthPillar_clearly (2 / 5) (3 / 10) (by decide +kernel)
  obtain ⟨v, hv, hlt⟩ : ∃ v, tenthPillar.atPositionI binary64.rd "a" ⟨2 / 5, 3 / 10⟩ = .ok v ∧ v < 253 := ⟨0, by decide +kernel, by decide +kernel⟩
  have hh : HypOk (fun i j => toFloat (hypot i j)) ⌈binary64.rd (1 / 100 / tenthPillar.resolution)⌉.toNat := by
    rw [hn]; exact (C91_hypot hypot_ok _).2 (by norm_num)
  obtain ⟨st', h1, h2⟩ := C116_complete_machine (F := binary64) (rf := toFloat) (radius := 1 / 100) (computer := fun _ => 253) (pop := pop)
    (o := Inflater.new) toDouble_precision toDouble_ints top64 tenthPillar_held hs (ls := "a") (by decide +kernel) "t" (by norm_num)
    (by decide +kernel) (by rw [hn]; norm_num) pop_ok hh .new [] 253
  obtain ⟨g, g1, g2⟩ := C124_complete_machine_partial (F := binary64) (rf := toFloat) (radius := 1 / 100) (computer := fun _ => 253) (pop := pop)
    (o := Inflater.new) toDouble_precision toDouble_ints top64 tenthPillar_held hs (by decide +kernel) (by decide +kernel) (by decide +kernel) (ls := "a")
    (by decide +kernel) "t" (by norm_num) (by decide +kernel) (by decide +kernel) (by rw [hn]; norm_num) pop_ok hh .new []
  exact ⟨⟨st', h1, h2 _ v cl hv hlt tenthPillar_fits⟩, g, g1, g2 ⟨0, 0⟩ _ v (by decide +kernel) (by decide +kernel) (by decide +kernel) cl hv hlt
    tenthPillar_fits _ toDouble_precision⟩

end CostMapModel

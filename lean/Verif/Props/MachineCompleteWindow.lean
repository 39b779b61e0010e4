import Verif.Props.MachineComplete
import Verif.Props.MachineWindow
import Verif.Props.MachineCompletePlan

/-! # C119 on the machine, the other way round: where the robot fits in the map, the window says so -/

set_option linter.unusedSectionVars false

namespace CostMapModel
open Inflation CostMap

section
variable {K : Type} [Field K] [LinearOrder K] [IsStrictOrderedRing K] [FloorRing K]
variable {w : World K} {F : Fmt K} {rf : K → K} {pop : Pop K} {hyp : Nat → Nat → K} {computer : K → Cost} {radius : K} {m : CostMap K}
  {o : Inflater K}

/-- What is read in the window is read in the map, less than a cell away. -/
theorem window_back (hrd : DoublePrecision F.rd) (hF : IntsExact F.rd) (htop : 2 ^ 31 ≤ F.top) (hm : HeldI w F rf m) {pos len : Vec K}
    (hp : PointIn w.size pos) (hr : RequestOkRd F.rd m pos len) (hcen : CentreOkRd F.rd m pos len) {s : CostMap K}
    (e : m.getSubmapI F.rd pos len 0 = .ok (s, 0, true)) {l : String} (hl : m.exists l = true) {y : Vec K} (hy : s.Clearly F.rd y) :
    ∃ x v, m.Clearly F.rd x ∧ s.atPositionI F.rd l y = .ok v ∧ m.atPositionI F.rd l x = .ok v ∧ |x.x - y.x| ≤ 5 / 8 * m.resolution ∧
      |x.y - y.y| ≤ 5 / 8 * m.resolution := by
  have hw := held_inWorld hrd hF htop hm
  have hs : s.GeoRd F.rd ∧ s.Tame43 ∧ s.Small := by
    obtain ⟨s1, e1, hs⟩ := getSubmapI_safe hrd hw hp hr hcen 0
    rw [e] at e1
    cases e1
    exact ⟨hs.geo, hs.tame43, hs.small⟩
  obtain ⟨sg, st, sm⟩ := hs
  obtain ⟨s0, k, e0, -, -, -, -, -, hk, -, -, hop⟩ := C78_submap_partial hrd hw.geo hw.coherent hw.tame43 hr hcen 0
  have es : s = s0 := by
    have := (C79_getSubmap hrd hw.geo hw.tame43 hw.small hr hcen 0).trans e0
    rw [e] at this
    cases this; rfl
  subst es
  have hpos := hw.geo.res_pos
  obtain ⟨tx, ty⟩ := tol_small hw.geo hw.tame43
  have hkr : s.resolution = m.resolution := hk.res.symm
  have hst : s.startIndex = ⟨0, 0⟩ := getSubmapI_start e
  have kx : |m.corner.x - s.corner.x - k.x * m.resolution| ≤ m.resolution / 32 := by
    rw [← hkr]; exact hk.x.trans (by rw [hkr]; exact max_le tx ty)
  have ky : |m.corner.y - s.corner.y - k.y * m.resolution| ≤ m.resolution / 32 := by
    rw [← hkr]; exact hk.y.trans (by rw [hkr]; exact max_le tx ty)
  obtain ⟨hin, ⟨x1, x2⟩, y1, y2⟩ := clearly_cell hrd sg st hst hy
  have hat0 := clearly_at hrd sg (tame_of_tame43 sg st) sm hy l
  generalize (s.getIndexRd F.rd y).1 = i at hin x1 x2 y1 y2 hat0
  have hlog : s.logical i = i := by
    unfold logical
    rw [hst]
    obtain ⟨i1, i2, i3, i4⟩ := hin
    ext <;> simp only [sub_zero]
    · exact Int.emod_eq_of_lt i1 i2
    · exact Int.emod_eq_of_lt i3 i4
  obtain ⟨j, ⟨hj, hjl⟩, hat⟩ := hop i hin
  rw [hlog] at hjl
  obtain ⟨x, -, hxc, hxat, cx, cy⟩ := centre_clearly hrd hw.geo hw.tame43 hw.small hj
  obtain ⟨v, hv⟩ := hw.coherent.at_ok hl hj
  rw [hkr, le_div_iff₀ hpos] at x1 y1
  rw [hkr, div_le_iff₀ hpos] at x2 y2
  rw [hjl] at cx cy
  have ax : ((i + k).x : K) = i.x + k.x := by show ((i.x + k.x : Int) : K) = _; push_cast; rfl
  have ay : ((i + k).y : K) = i.y + k.y := by show ((i.y + k.y : Int) : K) = _; push_cast; rfl
  rw [ax] at cx
  rw [ay] at cy
  refine ⟨x, v, hxc, ?_, by rw [hxat, hv], ?_, ?_⟩
  · rw [hat0, hat l ((hw.coherent.mem_iff l).mpr hl), hv]
  · rw [abs_le] at *
    constructor <;> linarith [kx.1, kx.2, cx.1, cx.2]
  · rw [abs_le] at *
    constructor <;> linarith [ky.1, ky.2, cy.1, cy.2]

/-- C119 on the machine, the other way round: at a position well in the requested rectangle and the map, where the costs read within 5/8 of a cell are
below the threshold and a robot fits in the map that is larger than the radius of inflation by four cells and a rounding error, the answer of the window
is "clear". -/
theorem C119_complete_machine (hrd : DoublePrecision F.rd) (hF : IntsExact F.rd) (htop : 2 ^ 31 ≤ F.top) (hm : HeldI w F rf m)
    {ls : String} (hls : m.exists ls = true) (ld : String) (h0 : 0 ≤ radius)
    (htr : |F.rd (radius / m.resolution)| < F.top) (hn : ⌈F.rd (radius / m.resolution)⌉.toNat < 2 ^ 32 - 2) (hpop : PopOk pop)
    (hh : HypOk hyp ⌈F.rd (radius / m.resolution)⌉.toNat) (ho : UsedU F rf hyp computer m.resolution o) (thr : Cost)
    {pos len : Vec K} (hp : PointIn w.size pos) (hr : RequestOkRd F.rd m pos len) (hcen : CentreOkRd F.rd m pos len)
    {p : Vec K} (hpw : m.WellInWindow F.rd pos len p) (hpi : WellInside (m.resolution / 4) m p)
    (hlow : ∀ x v, m.Clearly F.rd x → |x.x - p.x| ≤ 5 / 8 * m.resolution → |x.y - p.y| ≤ 5 / 8 * m.resolution →
      m.atPositionI F.rd ls x = .ok v → v < thr)
    (hfit : m.RobotFitsI F.rd ls (radius * (1 + 1 / 2 ^ 53) + 4 * m.resolution) p) :
    inWindowI F.rd m pos len (inflatedI F rf pop hyp ls ld radius computer o fun w => placeClearI F.rd w ld thr p) = .ok true := by
  have hres := (held_inWorld hrd hF htop hm).geo.res_pos
  obtain ⟨s, es, hs, sh, s0, sr, se, hcov, -⟩ := window_machine hrd hF htop hm hp hr hcen
  have hR : 0 ≤ radius * (1 + 1 / 2 ^ 53) + 3 * m.resolution := add_nonneg (mul_nonneg h0 (by positivity)) (by positivity)
  rw [← sr] at htr hn hh ho
  obtain ⟨st', e, h⟩ := C116_complete_machine hrd hF htop sh s0 (ls := ls) (by rw [se, hls]) ld h0 htr hn hpop hh ho [] thr
  obtain ⟨x, v, hx, hv, hxv, d1, d2⟩ := window_back hrd hF htop hm hp hr hcen es hls (hcov p hpw hpi)
  rw [hs]
  unfold inflatedI
  rw [e]
  refine h p v (hcov p hpw hpi) hv (hlow x v hx d1 d2 hxv) fun y hy hyc hlet => ?_
  obtain ⟨z, u, hz, hu, hzu, d3, d4⟩ := window_back hrd hF htop hm hp hr hcen es hls hyc
  rw [hlet] at hu
  cases hu
  refine hfit z ?_ hz hzu
  rw [sr] at hy
  unfold UnderRobot at hy ⊢
  obtain ⟨q, hq⟩ : ∃ q, q = 5 / 8 * m.resolution := ⟨_, rfl⟩
  rw [← hq] at d3 d4
  have hd := offset_bound d3 d4 hy hR (by rw [hq]; linarith)
  rw [show (z.x - p.x) ^ 2 + (z.y - p.y) ^ 2 = (z.x - y.x + (y.x - p.x)) ^ 2 + (z.y - y.y + (y.y - p.y)) ^ 2 by ring]
  exact hd.trans (pow_le_pow_left₀ (by rw [hq]; linarith) (by rw [hq]; linarith) 2)

end

namespace Demo

/-- The row of C121, moved down by a cell: its buffer starts at cell (1, 0). -/
def quarterRowMoved : CostMap ℚ := (moveI toDouble ⟨3 / 4, 1⟩ quarterRow).2

theorem quarterRowMoved_held : HeldI hundred binary64 toFloat quarterRowMoved := by
  have hd : ∀ {α : Type} {f : Act (CostMap ℚ) α} {m : CostMap ℚ}, (Call.discard f m).2 = (f m).2 := by
    intro α f m
    unfold Call.discard Act.bind
    rcases f m with ⟨r, s⟩
    cases r <;> rfl
  refine .returned (.move ⟨3 / 4, 1⟩) quarterRow_held ⟨by unfold PointIn; decide +kernel, by decide +kernel⟩ ?_
  rw [ok_pair (r := MachineCall.run binary64 toFloat (.move ⟨3 / 4, 1⟩) quarterRow) (by decide +kernel)]
  exact congrArg _ hd

/-- The costs of the moved row: the obstacle is at x = 0, the cell that came in at x = -1/4, all others are free. -/
theorem quarterRowMoved_cells : ∀ q ∈ colMajor 9 1, ∀ c ∈ quarterRowMoved.getPositionRd toDouble q,
    (quarterRowMoved.at "a" q = .ok LETHAL_OBSTACLE → c.x = 0) ∧ (c.x ≤ 0 ∨ quarterRowMoved.at "a" q = .ok 0) := by decide +kernel

theorem mem_row {q : Idx} (h : q.In quarterRowMoved.size) : q ∈ colMajor 9 1 := mem_colMajor.mpr (by
  rw [show quarterRowMoved.size = ⟨9, 1⟩ from by decide +kernel] at h
  unfold Idx.In at h
  simp only at h
  omega)

end Demo

open Demo in
/-- A window of the moved row with the obstacle in it: "clear" at (1.65, 1). -/
example : quarterRowMoved.startIndex = ⟨1, 0⟩ ∧
    inWindowI toDouble quarterRowMoved ⟨9 / 10, 1⟩ ⟨17 / 10, 2 / 10⟩ (inflatedI binary64 toFloat pop (fun i j => toFloat (hypot i j)) "a" "t"
      (1 / 4) (fun _ => 253) Inflater.new fun w => placeClearI toDouble w "t" 253 ⟨165 / 100, 1⟩) = .ok true := by
  have hn : ⌈binary64.rd (1 / 4 / quarterRowMoved.resolution)⌉.toNat = 1 := by decide +kernel
  have hw := held_inWorld (F := binary64) toDouble_precision toDouble_ints top64 quarterRowMoved_held
  have hres : quarterRowMoved.resolution = 1 / 4 := by decide +kernel
  have htx : quarterRowMoved.tolX ≤ 1 / 100 := by decide +kernel
  refine ⟨by decide +kernel, C119_complete_machine (F := binary64) (rf := toFloat) (radius := 1 / 4) (computer := fun _ => 253)
    toDouble_precision toDouble_ints top64 quarterRowMoved_held (ls := "a") (by decide +kernel) "t" (by norm_num)
    (by decide +kernel) (by rw [hn]; norm_num) pop_ok (by rw [hn]; exact (C91_hypot hypot_ok _).2 (by norm_num)) .new 253
    (by unfold PointIn; decide +kernel)
    ⟨by unfold CornerOk; decide +kernel, by unfold CornerOk; decide +kernel, by unfold CornerOk; decide +kernel, by unfold CornerOk; decide +kernel⟩
    ⟨by decide +kernel, by decide +kernel, by decide +kernel, by decide +kernel, by decide +kernel, by decide +kernel⟩
    ⟨⟨by decide +kernel, by decide +kernel⟩, by decide +kernel, by decide +kernel⟩ ⟨by decide +kernel, by decide +kernel⟩ ?_ ?_⟩
  · intro x v hx d1 _ hv
    rw [clearly_at (rd := binary64.rd) toDouble_precision hw.geo hw.tame hw.small hx] at hv
    obtain ⟨q, c, e, hq, hc, c1, -⟩ := C74_containing_cell_partial (rd := binary64.rd) toDouble_precision hw.geo hw.tame hx.inside hx.x hx.y
    rw [e] at hv
    rcases (quarterRowMoved_cells q (mem_row hq) c hc).2 with h | h
    · rw [hres, abs_le] at d1 c1
      norm_num at d1
      linarith [d1.1, c1.2]
    · rw [h] at hv
      cases hv
      decide
  · intro x hx hxc hlet
    obtain ⟨q, c, hc, hl, c1, -⟩ := lethal_centreI (rd := binary64.rd) toDouble_precision hw.geo hw.tame43 hw.small hxc hlet
    have h0 := (quarterRowMoved_cells q (mem_row (getPositionRd_in hc)) c hc).1 hl
    rw [h0, hres] at c1
    rw [hres] at hx
    unfold UnderRobot at hx
    norm_num at hx
    have := (abs_le.mp c1).1
    nlinarith [sq_nonneg (x.y - 1)]

end CostMapModel

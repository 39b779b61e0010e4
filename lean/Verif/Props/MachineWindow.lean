import Verif.Model.MachineWindow
import Verif.Spec.Window
import Verif.Props.Window
import Verif.Props.MachineFootprint
import Verif.Props.SubmapEdit
import Verif.Spec.MachineLine

/-! # C119: planning in a window of the map, on the machine -/

set_option linter.unusedSectionVars false

namespace CostMapModel
open Inflation CostMap
open Act (Keeps)

section
variable {K : Type} [Field K] [LinearOrder K] [IsStrictOrderedRing K] [FloorRing K]

/-- One axis: the row of a position in the rectangle is a row of the window. -/
theorem row_in_window {r M S lo hi c x : K} {N n u k : Int} (hr : 0 < r) (hu0 : 0 ≤ u) (huN : u < N) (hk : |M - S - k * r| ≤ r / 32)
    (hc : |c - (M - (u + 1 / 2) * r)| ≤ r / 32) (hx : |x - c| ≤ r / 2 + r / 32) (hup : min hi M - 2 * (r / 32) ≤ S)
    (hlow : S - n * r ≤ max lo (M - N * r) + 2 * (r / 32)) (h0 : lo + r / 4 ≤ x) (h1 : x ≤ hi - r / 4) : 0 ≤ u - k ∧ u - k < n := by
  obtain ⟨k1, k2⟩ := abs_le.mp hk
  obtain ⟨c1, c2⟩ := abs_le.mp hc
  obtain ⟨x1, x2⟩ := abs_le.mp hx
  have key : ∀ {a b : Int}, (a : K) * r < (b + 1) * r → a ≤ b := fun {a b} h => by
    have h' : (a : K) < b + 1 := lt_of_mul_lt_mul_right h hr.le
    have : (a : K) < ((b + 1 : Int) : K) := by push_cast; exact h'
    have := Int.cast_lt.mp this
    omega
  constructor
  · rcases min_choice hi M with e | e <;> rw [e] at hup
    · have := key (a := k) (b := u) (by rw [add_mul] at *; linarith)
      omega
    · have := key (a := k) (b := 0) (by push_cast; rw [add_mul]; linarith)
      omega
  · rcases max_choice lo (M - N * r) with e | e <;> rw [e] at hlow
    · have := key (a := u + 1) (b := n + k) (by push_cast; rw [add_mul, add_mul, add_mul] at *; linarith)
      omega
    · have := key (a := N) (b := n + k) (by push_cast; rw [add_mul, add_mul]; linarith)
      omega

/-- A position an eighth of a cell inside is clearly inside. -/
theorem clearly_of {rd : K → K} (hrd : DoublePrecision rd) {m : CostMap K} (h : m.GeoRd rd) (ht : m.Tame43) {p : Vec K}
    (hx : |p.x - m.position.x| ≤ m.size.x * m.resolution / 2 - m.resolution / 8)
    (hy : |p.y - m.position.y| ≤ m.size.y * m.resolution / 2 - m.resolution / 8) : m.Clearly rd p := by
  have ax := axis43_x h ht
  have ay := axis43_y h ht
  have ux := tame_unit ax ht.x
  have uy := tame_unit ay ht.y
  have nx := ax.unit_nonneg
  have ny := ay.unit_nonneg
  obtain ⟨lx1, lx2⟩ := abs_le.mp (ax.len_err hrd)
  obtain ⟨ly1, ly2⟩ := abs_le.mp (ay.len_err hrd)
  obtain ⟨x1, x2⟩ := abs_le.mp hx
  obtain ⟨y1, y2⟩ := abs_le.mp hy
  obtain ⟨i1, i2⟩ := ax.inside_of hrd (p := p.x) (by linarith) (by linarith)
  obtain ⟨i3, i4⟩ := ay.inside_of hrd (p := p.y) (by linarith) (by linarith)
  refine ⟨?_, ?_, ?_⟩
  · simp only [isInsideRd, withinMapRd, Bool.and_eq_true, decide_eq_true_eq]
    exact ⟨⟨⟨i1, i3⟩, i2⟩, i4⟩
  · rw [tolX_eq]; linarith
  · rw [tolY_eq]; linarith

theorem tol_small {rd : K → K} {m : CostMap K} (h : m.GeoRd rd) (ht : m.Tame43) : m.tolX ≤ m.resolution / 32 ∧ m.tolY ≤ m.resolution / 32 := by
  have := h.res_pos
  have tol : ∀ {t : K}, t ≤ 2 ^ 43 * m.resolution → t / 2 ^ 48 ≤ m.resolution / 32 := fun {t} h => by
    rw [div_le_iff₀ (by positivity)]; linarith
  exact ⟨tol ht.x, tol ht.y⟩

/-- The computed centre of a cell is clearly inside, and reads the cell. -/
theorem centre_clearly {rd : K → K} (hrd : DoublePrecision rd) {m : CostMap K} (h : m.GeoRd rd) (ht : m.Tame43) (hm : m.Small) {i : Idx}
    (hi : i.In m.size) :
    ∃ y, m.getPositionRd rd i = some y ∧ m.Clearly rd y ∧ (∀ l, m.atPositionI rd l y = m.at l i) ∧
      |y.x - (m.corner.x - ((m.logical i).x + 1 / 2) * m.resolution)| ≤ m.resolution / 32 ∧
      |y.y - (m.corner.y - ((m.logical i).y + 1 / 2) * m.resolution)| ≤ m.resolution / 32 := by
  have ht' := tame_of_tame43 h ht
  obtain ⟨tx, ty⟩ := tol_small h ht
  obtain ⟨y, hy, cx, cy⟩ := C73_centre hrd h ht' hi
  obtain ⟨y', hy', -, hidx⟩ := C73_round_trip hrd h ht' hi
  obtain rfl : y = y' := by rw [hy] at hy'; exact Option.some.inj hy'
  have hr := h.res_pos
  obtain ⟨u1, u2, u3, u4⟩ := unwrapIdx_in hi h.start
  rw [← logical_eq_unwrap hi] at u1 u2 u3 u4
  have ex : m.corner.x - ((m.logical i).x + 1 / 2) * m.resolution =
      m.position.x + ((m.size.x : K) / 2 - (m.logical i).x - 1 / 2) * m.resolution := by unfold corner; ring
  have ey : m.corner.y - ((m.logical i).y + 1 / 2) * m.resolution =
      m.position.y + ((m.size.y : K) / 2 - (m.logical i).y - 1 / 2) * m.resolution := by unfold corner; ring
  have bound : ∀ {n u : Int} {q pos : K}, 0 ≤ u → u < n → |q - (pos + ((n : K) / 2 - u - 1 / 2) * m.resolution)| ≤ m.resolution / 32 →
      |q - pos| ≤ n * m.resolution / 2 - m.resolution / 8 := by
    intro n u q pos h0 h1 hq
    obtain ⟨a, b⟩ := abs_le.mp hq
    have h0' : (0 : K) ≤ u := by exact_mod_cast h0
    have h1' : (u : K) + 1 ≤ n := by exact_mod_cast h1
    have e0 := mul_nonneg h0' hr.le
    have e1 := mul_le_mul_of_nonneg_right h1' hr.le
    rw [abs_le]
    constructor <;> linarith
  have hcl := clearly_of hrd h ht (bound u1 u2 (cx.trans tx)) (bound u3 u4 (cy.trans ty))
  refine ⟨y, hy, hcl, fun l => ?_, by rw [ex]; exact cx.trans tx, by rw [ey]; exact cy.trans ty⟩
  rw [clearly_at hrd h ht' hm hcl, hidx]

theorem copyLayers_start (m : CostMap K) (regs : List BufferRegion) (i : Idx) (ks : List String) :
    Keeps (fun s : CostMap K => s.startIndex = i) (Act.forEach (m.copyLayer regs) ks) := by
  refine Keeps.forEach (fun l => ?_) ks
  unfold copyLayer
  split
  · exact Keeps.pure _
  refine Keeps.forEach (fun r s hs => ?_) regs
  unfold copyRegion
  dsimp only
  split
  · exact hs
  split
  · exact hs
  · exact hs

/-- The buffer of a submap starts at cell (0, 0). -/
theorem getSubmapI_start {rd : K → K} {m s : CostMap K} {pos len : Vec K} {i j : Idx} (e : m.getSubmapI rd pos len i = .ok (s, j, true)) :
    s.startIndex = ⟨0, 0⟩ := by
  unfold getSubmapI at e
  dsimp only at e
  split at e
  · cases e
  · cases e
  rename_i info _
  generalize setGeometryI rd info.length m.resolution info.position _ = q at e
  obtain ⟨r, s1⟩ := q
  cases r <;> try cases e
  dsimp only at e
  split at e
  · cases e
  · cases e
  rename_i regs _
  have h3 := copyLayers_start m regs ⟨0, 0⟩ m.layers (s1.setStartIndex 0) rfl
  generalize Act.forEach (m.copyLayer regs) m.layers (s1.setStartIndex 0) = q at e h3
  obtain ⟨r, s2⟩ := q
  cases r <;> cases e
  exact h3

variable {w : World K} {F : Fmt K} {rf : K → K} {m : CostMap K}

/-- The window: again a map of the world, not moved; a position in it that reads the lethal cost in the map has one near it that reads it in the window. -/
theorem window_machine (hrd : DoublePrecision F.rd) (hF : IntsExact F.rd) (htop : 2 ^ 31 ≤ F.top) (hm : HeldI w F rf m) {pos len : Vec K}
    (hp : PointIn w.size pos) (hr : RequestOkRd F.rd m pos len) (hcen : CentreOkRd F.rd m pos len) :
    ∃ s, m.getSubmapI F.rd pos len 0 = .ok (s, 0, true) ∧ (∀ rest, inWindowI F.rd m pos len rest = rest s) ∧ HeldI w F rf s ∧ s.startIndex = ⟨0, 0⟩ ∧ s.resolution = m.resolution ∧
      (∀ l, s.exists l = m.exists l) ∧ (∀ p, m.WellInWindow F.rd pos len p → WellInside (m.resolution / 4) m p → s.Clearly F.rd p) ∧
      ∀ l x, m.exists l = true → m.Clearly F.rd x → m.WellInWindow F.rd pos len x → m.atPositionI F.rd l x = .ok LETHAL_OBSTACLE →
        ∃ y, s.Clearly F.rd y ∧ s.atPositionI F.rd l y = .ok LETHAL_OBSTACLE ∧ |y.x - x.x| ≤ 5 / 8 * m.resolution ∧
          |y.y - x.y| ≤ 5 / 8 * m.resolution := by
  have hw := held_inWorld hrd hF htop hm
  obtain ⟨s, e, hs⟩ := getSubmapI_safe hrd hw hp hr hcen 0
  obtain ⟨s0, k, e0, g, -, c, hlay, -, hk, hcut, -, hop⟩ := C78_submap_partial hrd hw.geo hw.coherent hw.tame43 hr hcen 0
  have es : s = s0 := by
    have := (C79_getSubmap hrd hw.geo hw.tame43 hw.small hr hcen 0).trans e0
    rw [e] at this
    cases this; rfl
  subst es
  have hpos := hw.geo.res_pos
  obtain ⟨tx, ty⟩ := tol_small hw.geo hw.tame43
  have hkr : s.resolution = m.resolution := hk.res.symm
  have hst : s.startIndex = ⟨0, 0⟩ := getSubmapI_start e
  have kx : |m.corner.x - s.corner.x - k.x * m.resolution| ≤ m.resolution / 32 := by
    rw [← hkr]; exact hk.x.trans (by rw [hkr]; exact max_le tx ty)
  have ky : |m.corner.y - s.corner.y - k.y * m.resolution| ≤ m.resolution / 32 := by
    rw [← hkr]; exact hk.y.trans (by rw [hkr]; exact max_le tx ty)
  obtain ⟨ux, -, lx, -⟩ := hcut.x
  obtain ⟨uy, -, ly, -⟩ := hcut.y
  have upx : min (highRd F.rd pos len).x m.corner.x - 2 * (m.resolution / 32) ≤ s.corner.x := by
    have : s.corner.x = s.position.x + s.size.x * m.resolution / 2 := by unfold corner; rw [hkr]
    rw [this]; unfold corner; linarith
  have upy : min (highRd F.rd pos len).y m.corner.y - 2 * (m.resolution / 32) ≤ s.corner.y := by
    have : s.corner.y = s.position.y + s.size.y * m.resolution / 2 := by unfold corner; rw [hkr]
    rw [this]; unfold corner; linarith
  have lox : s.corner.x - s.size.x * m.resolution ≤
      max (lowRd F.rd pos len).x (m.corner.x - m.size.x * m.resolution) + 2 * (m.resolution / 32) := by
    have e1 : s.corner.x - s.size.x * m.resolution = s.position.x - s.size.x * m.resolution / 2 := by unfold corner; rw [hkr]; ring
    have e2 : m.corner.x - m.size.x * m.resolution = m.position.x - m.size.x * m.resolution / 2 := by unfold corner; ring
    rw [e1, e2]; linarith
  have loy : s.corner.y - s.size.y * m.resolution ≤
      max (lowRd F.rd pos len).y (m.corner.y - m.size.y * m.resolution) + 2 * (m.resolution / 32) := by
    have e1 : s.corner.y - s.size.y * m.resolution = s.position.y - s.size.y * m.resolution / 2 := by unfold corner; rw [hkr]; ring
    have e2 : m.corner.y - m.size.y * m.resolution = m.position.y - m.size.y * m.resolution / 2 := by unfold corner; ring
    rw [e1, e2]; linarith
  refine ⟨s, e, fun rest => ?_, .submap pos len 0 0 hm hp hr hcen e, hst, hkr, fun l => ?_, fun p hpw hpi => ?_, fun l x hl hx hxw hlet => ?_⟩
  · unfold inWindowI
    rw [e]
    rfl
  · show (s.data l).isSome = (m.data l).isSome
    rw [Bool.eq_iff_iff, ← c.mem_iff, ← hw.coherent.mem_iff, hlay]
  · obtain ⟨⟨a1, a2⟩, a3, a4⟩ := hpw
    have ax := axis43_x hw.geo hw.tame43
    have ay := axis43_y hw.geo hw.tame43
    obtain ⟨lx1, lx2⟩ := abs_le.mp (ax.len_err hrd)
    obtain ⟨ly1, ly2⟩ := abs_le.mp (ay.len_err hrd)
    have b1 : |p.x - m.position.x| ≤ m.size.x * m.resolution / 2 - m.resolution / 5 :=
      hpi.x.trans (by linarith [tame_unit ax hw.tame43.x])
    have b2 : |p.y - m.position.y| ≤ m.size.y * m.resolution / 2 - m.resolution / 5 :=
      hpi.y.trans (by linarith [tame_unit ay hw.tame43.y])
    have key : ∀ {q P S lo hi M : K} {N n : Int}, M = P + N * m.resolution / 2 → min hi M - 2 * (m.resolution / 32) ≤ S →
        S - n * m.resolution ≤ max lo (M - N * m.resolution) + 2 * (m.resolution / 32) → lo + m.resolution / 4 ≤ q → q ≤ hi - m.resolution / 4 →
        |q - P| ≤ N * m.resolution / 2 - m.resolution / 5 →
        |q - (S - n * m.resolution / 2)| ≤ n * m.resolution / 2 - m.resolution / 8 := by
      intro q P S lo hi M N n hM h1 h2 h3 h4 h5
      obtain ⟨c1, c2⟩ := abs_le.mp h5
      have g1 : q + m.resolution / 5 ≤ min hi M := le_min (by linarith) (by linarith)
      have g2 : max lo (M - N * m.resolution) ≤ q - m.resolution / 5 := max_le (by linarith) (by linarith)
      rw [abs_le]
      constructor <;> linarith
    have ex : s.position.x = s.corner.x - s.size.x * m.resolution / 2 := by unfold corner; rw [hkr]; ring
    have ey : s.position.y = s.corner.y - s.size.y * m.resolution / 2 := by unfold corner; rw [hkr]; ring
    refine clearly_of hrd hs.geo hs.tame43 ?_ ?_
    · rw [hkr, ex]; exact key rfl upx lox a1 a2 b1
    · rw [hkr, ey]; exact key rfl upy loy a3 a4 b2
  · obtain ⟨j, q, hq, hj, qx, qy⟩ := lethal_centreI hrd hw.geo hw.tame43 hw.small hx hlet
    have hji := getPositionRd_in hq
    obtain ⟨q', hq', -, -, cx, cy⟩ := centre_clearly hrd hw.geo hw.tame43 hw.small hji
    obtain rfl : q = q' := by rw [hq] at hq'; exact Option.some.inj hq'
    obtain ⟨⟨a1, a2⟩, a3, a4⟩ := hxw
    obtain ⟨u1, u2, u3, u4⟩ := unwrapIdx_in hji hw.geo.start
    rw [← logical_eq_unwrap hji] at u1 u2 u3 u4
    obtain ⟨v1, v2⟩ := row_in_window hpos u1 u2 kx cx (by rw [abs_sub_comm]; exact qx) upx lox a1 a2
    obtain ⟨v3, v4⟩ := row_in_window hpos u3 u4 ky cy (by rw [abs_sub_comm]; exact qy) upy loy a3 a4
    -- the cell of the window
    obtain ⟨i, hi⟩ : ∃ i : Idx, i = ⟨(m.logical j).x - k.x, (m.logical j).y - k.y⟩ := ⟨_, rfl⟩
    have hin : i.In s.size := by rw [hi]; exact ⟨v1, v2, v3, v4⟩
    have hlog : s.logical i = i := by
      unfold logical
      rw [hst]
      obtain ⟨i1, i2, i3, i4⟩ := hin
      ext <;> simp only [sub_zero]
      · exact Int.emod_eq_of_lt i1 i2
      · exact Int.emod_eq_of_lt i3 i4
    obtain ⟨j', hj', hat⟩ := hop i hin
    have hjj : j' = j := by
      have : m.logical j' = m.logical j := by rw [hj'.2, hlog, hi]; ext <;> simp
      rw [← buffer_unwrap hj'.1 hw.geo.start, ← buffer_unwrap hji hw.geo.start, ← logical_eq_unwrap hj'.1, ← logical_eq_unwrap hji, this]
    obtain ⟨y, -, hyc, hyat, yx, yy⟩ := centre_clearly hrd hs.geo hs.tame43 hs.small hin
    refine ⟨y, hyc, ?_, ?_, ?_⟩
    · rw [hyat, hat l ((hw.coherent.mem_iff l).mpr hl), hjj, hj]
    · rw [hlog, hkr, hi] at yx
      push_cast at yx
      rw [abs_le] at *
      constructor <;> linarith [yx.1, yx.2, kx.1, kx.2, cx.1, cx.2, qx.1, qx.2]
    · rw [hlog, hkr, hi] at yy
      push_cast at yy
      rw [abs_le] at *
      constructor <;> linarith [yy.1, yy.2, ky.1, ky.2, cy.1, cy.2, qy.1, qy.2]

/-- If the robot is in the window as far as it is in the map, and a robot larger by a cell fits in the window, it fits in the map. -/
theorem fits_of_windowI {rd : K → K} {s : CostMap K} {pos len : Vec K} {l : String} {ρ : K} {p : Vec K} (hpos : 0 < m.resolution)
    (hnear : ∀ x, m.Clearly rd x → m.WellInWindow rd pos len x → m.atPositionI rd l x = .ok LETHAL_OBSTACLE →
      ∃ y, s.Clearly rd y ∧ s.atPositionI rd l y = .ok LETHAL_OBSTACLE ∧ |y.x - x.x| ≤ 5 / 8 * m.resolution ∧ |y.y - x.y| ≤ 5 / 8 * m.resolution)
    (hρ : 0 ≤ ρ) (hin : ∀ x, UnderRobot ρ p x → m.Clearly rd x → m.WellInWindow rd pos len x) (h : s.RobotFitsI rd l (ρ + m.resolution) p) :
    m.RobotFitsI rd l ρ p := by
  intro x hx hxc hlet
  obtain ⟨y, hyc, hy, yx, yy⟩ := hnear x hxc (hin x hx hxc) hlet
  refine h y ?_ hyc hy
  unfold UnderRobot at hx ⊢
  obtain ⟨q, hq⟩ : ∃ q, q = 5 / 8 * m.resolution := ⟨_, rfl⟩
  rw [← hq] at yx yy
  have hd := offset_bound yx yy hx hρ (by rw [hq]; linarith)
  have e : (y.x - p.x) ^ 2 + (y.y - p.y) ^ 2 = (y.x - x.x + (x.x - p.x)) ^ 2 + (y.y - x.y + (x.y - p.y)) ^ 2 := by ring
  rw [e]
  refine hd.trans (pow_le_pow_left₀ (by rw [hq]; linarith) (by rw [hq]; linarith) 2)

variable {pop : Pop K} {hyp : Nat → Nat → K} {radius : K} {computer : K → Cost} {o : Inflater K}

/-- C119 on the machine. Cut a window, inflate it and look at one cost, on every map that calls can reach, moved or not: at every position well in the
requested rectangle and the map there is an answer, and if it is "clear" and the robot does not stick out of the rectangle, the robot fits in the map. -/
theorem C119_fits_machine (hrd : DoublePrecision F.rd) (hF : IntsExact F.rd) (htop : 2 ^ 31 ≤ F.top) (hm : HeldI w F rf m)
    {ls : String} (hls : m.exists ls = true) (ld : String) (h0 : 0 ≤ radius)
    (htr : |F.rd (radius / m.resolution)| < F.top) (hn : ⌈F.rd (radius / m.resolution)⌉.toNat < 2 ^ 32 - 2) (hpop : PopOk pop)
    (hh : HypOk hyp ⌈F.rd (radius / m.resolution)⌉.toNat) (ho : UsedU F rf hyp computer m.resolution o) {n : Nat}
    (hnr : (n : K) * m.resolution ≤ radius * (1 - 1 / 2 ^ 53)) {thr : Cost}
    (hthr : ∀ i q, sqDist i q ≤ n * n → thr ≤ inflationCostRd rf hyp computer m.resolution i q) {ρ : K} (h2 : 2 ≤ n) (hρ0 : 0 ≤ ρ)
    (hρ : 2 * (ρ + m.resolution) ^ 2 ≤ (((n : K) - 2) * m.resolution) ^ 2)
    {pos len : Vec K} (hp : PointIn w.size pos) (hr : RequestOkRd F.rd m pos len) (hcen : CentreOkRd F.rd m pos len)
    {p : Vec K} (hpw : m.WellInWindow F.rd pos len p) (hpi : WellInside (m.resolution / 4) m p) :
    ∃ r, inWindowI F.rd m pos len (inflatedI F rf pop hyp ls ld radius computer o fun w => placeClearI F.rd w ld thr p) = .ok r ∧
      (r = true → (∀ x, UnderRobot ρ p x → m.Clearly F.rd x → m.WellInWindow F.rd pos len x) → m.RobotFitsI F.rd ls ρ p) := by
  have hres := (held_inWorld hrd hF htop hm).geo.res_pos
  obtain ⟨s, -, hs, sh, s0, sr, se, hcov, hat⟩ := window_machine hrd hF htop hm hp hr hcen
  obtain ⟨st', e, h⟩ := C116_fits_machine (m := s) (ρ := ρ + m.resolution) hrd hF htop sh s0 (ls := ls) (by rw [se, hls]) ld h0 (by rw [sr]; exact htr)
    (by rw [sr]; exact hn) hpop (by rw [sr]; exact hh) (by rw [sr]; exact ho) [] (by rw [sr]; exact hnr) (by rw [sr]; exact hthr) h2
    (by rw [sr]; exact hρ)
  obtain ⟨r, hr, hrt⟩ := h p (hcov p hpw hpi)
  refine ⟨r, ?_, fun h hin => fits_of_windowI hres (fun x => hat ls x hls) hρ0 hin (hrt h)⟩
  rw [hs]
  unfold inflatedI
  rw [e]
  exact hr

/-- C119 on the machine, a straight way in the window. -/
theorem C119_way_machine (hrd : DoublePrecision F.rd) (hF : IntsExact F.rd) (htop : 2 ^ 31 ≤ F.top) (hm : HeldI w F rf m)
    {ls : String} (hls : m.exists ls = true) (ld : String) (h0 : 0 ≤ radius)
    (htr : |F.rd (radius / m.resolution)| < F.top) (hn : ⌈F.rd (radius / m.resolution)⌉.toNat < 2 ^ 32 - 2) (hpop : PopOk pop)
    (hh : HypOk hyp ⌈F.rd (radius / m.resolution)⌉.toNat) (ho : UsedU F rf hyp computer m.resolution o) {n : Nat}
    (hnr : (n : K) * m.resolution ≤ radius * (1 - 1 / 2 ^ 53)) {thr : Cost}
    (hthr : ∀ i q, sqDist i q ≤ n * n → thr ≤ inflationCostRd rf hyp computer m.resolution i q) {ρ : K} (h4 : 4 ≤ n) (hρ0 : 0 ≤ ρ)
    (hρ : 2 * (ρ + m.resolution) ^ 2 ≤ (((n : K) - 4) * m.resolution) ^ 2) (sqrt : K → K)
    {pos len : Vec K} (hp : PointIn w.size pos) (hr : RequestOkRd F.rd m pos len) (hcen : CentreOkRd F.rd m pos len)
    {a b : Vec K} (haw : m.WellInWindow F.rd pos len a) (hai : WellInside (m.resolution / 4) m a) (hbw : m.WellInWindow F.rd pos len b)
    (hbi : WellInside (m.resolution / 4) m b) :
    ∃ r, (∀ fuel, 1 ≤ fuel →
        inWindowI F.rd m pos len (inflatedI F rf pop hyp ls ld radius computer o fun w => wayClearI F.rd sqrt fuel w ld thr a b) = .ok r) ∧
      (r = true → ∀ p, NearSegment (m.resolution / 32) a b p → m.WellInWindow F.rd pos len p → WellInside (m.resolution / 4) m p →
        (∀ x, UnderRobot ρ p x → m.Clearly F.rd x → m.WellInWindow F.rd pos len x) → m.RobotFitsI F.rd ls ρ p) := by
  have hres := (held_inWorld hrd hF htop hm).geo.res_pos
  obtain ⟨s, -, hs, sh, s0, sr, se, hcov, hat⟩ := window_machine hrd hF htop hm hp hr hcen
  obtain ⟨st', e, h⟩ := C116_way_machine (m := s) (ρ := ρ + m.resolution) hrd hF htop sh s0 (ls := ls) (by rw [se, hls]) ld h0 (by rw [sr]; exact htr)
    (by rw [sr]; exact hn) hpop (by rw [sr]; exact hh) (by rw [sr]; exact ho) [] (by rw [sr]; exact hnr) (by rw [sr]; exact hthr) h4
    (by rw [sr]; exact hρ) sqrt
  obtain ⟨r, hr, hrt⟩ := h a b (hcov a haw hai) (hcov b hbw hbi)
  refine ⟨r, fun fuel hf => ?_, fun h p hp hpw hpi hin =>
    fits_of_windowI hres (fun x => hat ls x hls) hρ0 hin (hrt h p (by rw [sr]; exact hp) (hcov p hpw hpi))⟩
  rw [hs]
  unfold inflatedI
  rw [e]
  exact hr fuel hf

/-- C119 on the machine, a circle of cells in the window: no condition on the seam of the map. -/
theorem C119_circle_machine (hrd : DoublePrecision F.rd) (hF : IntsExact F.rd) (htop : 2 ^ 31 ≤ F.top) (hm : HeldI w F rf m)
    {l : String} (hl : m.exists l = true) {thr : Cost} (hthr : thr ≤ LETHAL_OBSTACLE) {pos len : Vec K} (hp : PointIn w.size pos)
    (hr : RequestOkRd F.rd m pos len) (hcen : CentreOkRd F.rd m pos len) :
    ∃ s, m.getSubmapI F.rd pos len 0 = .ok (s, 0, true) ∧
      ∀ (p : Vec K) (ρ radius : K), 0 ≤ ρ → ρ + 2 * m.resolution ≤ radius → |p.x| + radius ≤ 2 ^ 43 * m.resolution →
        |p.y| + radius ≤ 2 ^ 43 * m.resolution → BoxOkRd s (circleLow F.rd p radius) (circleHigh F.rd p radius) →
        ∃ r, inWindowI F.rd m pos len (fun w => circleClearI F.rd w l thr p radius) = .ok r ∧
          (r = true → (∀ x, UnderRobot ρ p x → m.Clearly F.rd x → m.WellInWindow F.rd pos len x) → m.RobotFitsI F.rd l ρ p) := by
  have hres := (held_inWorld hrd hF htop hm).geo.res_pos
  obtain ⟨s, es, hs, sh, s0, sr, se, -, hat⟩ := window_machine hrd hF htop hm hp hr hcen
  refine ⟨s, es, fun p ρ radius hρ hrad sx sy hb => ?_⟩
  obtain ⟨r, h1, h2⟩ := C118_robot_machine_partial (m := s) (ρ := ρ + m.resolution) hrd hF htop sh s0 (l := l) (by rw [se, hl]) hthr (by linarith)
    (by rw [sr]; linarith) (by rw [sr]; exact sx) (by rw [sr]; exact sy) hb
  exact ⟨r, by rw [hs, h1], fun h hin => fits_of_windowI hres (fun x => hat l x hl) hρ hin (h2 h)⟩

end

namespace Demo

theorem turned_request : RequestOkRd binary64.rd turnedPillar ⟨2 / 10, -13 / 100⟩ ⟨41 / 100, 41 / 100⟩ :=
  ⟨by unfold CornerOk; decide +kernel, by unfold CornerOk; decide +kernel, by unfold CornerOk; decide +kernel, by unfold CornerOk; decide +kernel⟩

theorem turned_centre : CentreOkRd binary64.rd turnedPillar ⟨2 / 10, -13 / 100⟩ ⟨41 / 100, 41 / 100⟩ :=
  ⟨by decide +kernel, by decide +kernel, by decide +kernel, by decide +kernel, by decide +kernel, by decide +kernel⟩

/-- A robot of 7 cm at (0.2, -0.2) is in that window. -/
theorem turned_in : ∀ x, UnderRobot (7 / 100) ⟨2 / 10, -2 / 10⟩ x →
    turnedPillar.WellInWindow binary64.rd ⟨2 / 10, -13 / 100⟩ ⟨41 / 100, 41 / 100⟩ x := by
  intro x hx
  unfold UnderRobot at hx
  simp only at hx
  have e1 := abs_le.mp (abs_le_of_sq_le_sq (show (x.x - 2 / 10) ^ 2 ≤ (7 / 100) ^ 2 by nlinarith [sq_nonneg (x.y - -2 / 10)]) (by norm_num))
  have e2 := abs_le.mp (abs_le_of_sq_le_sq (show (x.y - -2 / 10) ^ 2 ≤ (7 / 100) ^ 2 by nlinarith [sq_nonneg (x.x - 2 / 10)]) (by norm_num))
  have l1 : (lowRd binary64.rd (⟨2 / 10, -13 / 100⟩ : Vec ℚ) ⟨41 / 100, 41 / 100⟩).x + turnedPillar.resolution / 4 ≤ 13 / 100 := by decide +kernel
  have l2 : (27 / 100 : ℚ) ≤ (highRd binary64.rd (⟨2 / 10, -13 / 100⟩ : Vec ℚ) ⟨41 / 100, 41 / 100⟩).x - turnedPillar.resolution / 4 := by decide +kernel
  have l3 : (lowRd binary64.rd (⟨2 / 10, -13 / 100⟩ : Vec ℚ) ⟨41 / 100, 41 / 100⟩).y + turnedPillar.resolution / 4 ≤ -27 / 100 := by decide +kernel
  have l4 : (-13 / 100 : ℚ) ≤ (highRd binary64.rd (⟨2 / 10, -13 / 100⟩ : Vec ℚ) ⟨41 / 100, 41 / 100⟩).y - turnedPillar.resolution / 4 := by decide +kernel
  exact ⟨⟨l1.trans (by linarith [e1.1]), le_trans (by linarith [e1.2]) l2⟩, l3.trans (by linarith [e2.1]), le_trans (by linarith [e2.2]) l4⟩

theorem turned_not_fits : ¬ turnedPillar.RobotFitsI binary64.rd "a" (7 / 100) ⟨2 / 10, -2 / 10⟩ := fun h => by
  refine absurd (h ⟨26 / 100, -2 / 10⟩ (by unfold UnderRobot; norm_num) (turnedPillar_clearly _ _ (by decide +kernel))) ?_
  rw [not_not]
  decide +kernel

instance (n : Int) (r pos p : ℚ) : Decidable (CornerOk n r pos p) := by unfold CornerOk; infer_instance

theorem turned_box (R : ℚ) : (match turnedPillar.getSubmapI toDouble ⟨2 / 10, -13 / 100⟩ ⟨41 / 100, 41 / 100⟩ 0 with
      | .ok (s, _, _) => decide (CornerOk s.size.x s.resolution s.position.x (circleHigh toDouble ⟨2 / 10, -2 / 10⟩ R).x ∧
          CornerOk s.size.y s.resolution s.position.y (circleHigh toDouble ⟨2 / 10, -2 / 10⟩ R).y ∧
          CornerOk s.size.x s.resolution s.position.x (circleLow toDouble ⟨2 / 10, -2 / 10⟩ R).x ∧
          CornerOk s.size.y s.resolution s.position.y (circleLow toDouble ⟨2 / 10, -2 / 10⟩ R).y)
      | _ => true) = true ↔
    ∀ s i b, turnedPillar.getSubmapI toDouble ⟨2 / 10, -13 / 100⟩ ⟨41 / 100, 41 / 100⟩ 0 = .ok (s, i, b) →
      BoxOkRd s (circleLow toDouble ⟨2 / 10, -2 / 10⟩ R) (circleHigh toDouble ⟨2 / 10, -2 / 10⟩ R) := by
  generalize turnedPillar.getSubmapI toDouble ⟨2 / 10, -13 / 100⟩ ⟨41 / 100, 41 / 100⟩ 0 = q
  constructor
  · rintro h s i b rfl
    obtain ⟨a1, a2, a3, a4⟩ := of_decide_eq_true h
    exact ⟨a1, a2, a3, a4⟩
  · intro h
    split
    · rename_i s i b
      obtain ⟨a1, a2, a3, a4⟩ := h s i b rfl
      exact decide_eq_true ⟨a1, a2, a3, a4⟩
    · rfl

end Demo

open Demo in
/-- The map whose buffer starts at cell (2, 5), with an obstacle at (0.3, -0.2), through a window of 0.41 around (0.2, -0.13): a robot of 7 cm at (0.2, -0.2)
is found not to fit, in the inflated window and with a circle. -/
example : turnedPillar.startIndex = ⟨2, 5⟩ ∧
    inWindowI toDouble turnedPillar ⟨2 / 10, -13 / 100⟩ ⟨41 / 100, 41 / 100⟩ (inflatedI binary64 toFloat pop (fun i j => toFloat (hypot i j)) "a" "t"
      (11 / 20) (fun _ => 253) Inflater.new fun w => placeClearI toDouble w "t" 253 ⟨2 / 10, -2 / 10⟩) = .ok false := by
  have hn : ⌈binary64.rd (11 / 20 / turnedPillar.resolution)⌉.toNat = 6 := by decide +kernel
  refine ⟨by decide +kernel, ?_⟩
  obtain ⟨r, h1, h2⟩ := C119_fits_machine (F := binary64) (rf := toFloat) (radius := 11 / 20) (computer := fun _ => 253) (thr := 253)
    (n := 5) (ρ := 7 / 100) toDouble_precision toDouble_ints top64 turnedPillar_held (ls := "a") (by decide +kernel) "t" (by norm_num)
    (by decide +kernel) (by rw [hn]; norm_num) pop_ok (by rw [hn]; exact (C91_hypot hypot_ok _).2 (by norm_num)) .new
    (by decide +kernel) (fun _ _ _ => UInt8.le_refl _) (by norm_num) (by norm_num) (by decide +kernel) (by unfold PointIn; decide +kernel)
    turned_request turned_centre (p := ⟨2 / 10, -2 / 10⟩) (turned_in _ (by unfold UnderRobot; norm_num)) ⟨by decide +kernel, by decide +kernel⟩
  cases r
  · exact h1
  · exact absurd (h2 rfl fun x hx _ => turned_in x hx) turned_not_fits

open Demo in
/-- The same place with a circle of 0.28 m in the window. -/
example : inWindowI toDouble turnedPillar ⟨2 / 10, -13 / 100⟩ ⟨41 / 100, 41 / 100⟩ (fun w => circleClearI toDouble w "a" LETHAL_OBSTACLE ⟨2 / 10, -2 / 10⟩
    (28 / 100)) = .ok false := by
  obtain ⟨s, es, h⟩ := C119_circle_machine (F := binary64) (rf := toFloat) toDouble_precision toDouble_ints top64 turnedPillar_held (l := "a")
    (by decide +kernel) (thr := LETHAL_OBSTACLE) (UInt8.le_refl _) (by unfold PointIn; decide +kernel) turned_request turned_centre
  obtain ⟨r, h1, h2⟩ := h ⟨2 / 10, -2 / 10⟩ (7 / 100) (28 / 100) (by norm_num) (by decide +kernel) (by decide +kernel) (by decide +kernel)
    ((turned_box (28 / 100)).mp (by decide +kernel) s _ _ es)
  cases r
  · exact h1
  · exact absurd (h2 rfl fun x hx _ => turned_in x hx) turned_not_fits

open Demo in
/-- It cannot drive from (0.1, -0.2) to (0.27, -0.2) either. -/
example : inWindowI toDouble turnedPillar ⟨2 / 10, -13 / 100⟩ ⟨41 / 100, 41 / 100⟩ (inflatedI binary64 toFloat pop (fun i j => toFloat (hypot i j)) "a" "t"
      (15 / 20) (fun _ => 253) Inflater.new fun w => wayClearI toDouble rootDouble 1 w "t" 253 ⟨1 / 10, -2 / 10⟩ ⟨27 / 100, -2 / 10⟩) = .ok false := by
  have hn : ⌈binary64.rd (15 / 20 / turnedPillar.resolution)⌉.toNat = 8 := by decide +kernel
  obtain ⟨r, h1, h2⟩ := C119_way_machine (F := binary64) (rf := toFloat) (radius := 15 / 20) (computer := fun _ => 253) (thr := 253)
    (n := 7) (ρ := 7 / 100) toDouble_precision toDouble_ints top64 turnedPillar_held (ls := "a") (by decide +kernel) "t" (by norm_num)
    (by decide +kernel) (by rw [hn]; norm_num) pop_ok (by rw [hn]; exact (C91_hypot hypot_ok _).2 (by norm_num)) .new
    (by decide +kernel) (fun _ _ _ => UInt8.le_refl _) (by norm_num) (by norm_num) (by decide +kernel) rootDouble (by unfold PointIn; decide +kernel)
    turned_request turned_centre (a := ⟨1 / 10, -2 / 10⟩) (b := ⟨27 / 100, -2 / 10⟩) (by unfold WellInWindow; decide +kernel)
    ⟨by decide +kernel, by decide +kernel⟩ (by unfold WellInWindow; decide +kernel) ⟨by decide +kernel, by decide +kernel⟩
  cases r
  · exact h1 1 le_rfl
  · refine absurd (h2 rfl ⟨2 / 10, -2 / 10⟩ ⟨10 / 17, by norm_num, by norm_num, ?_, ?_⟩ (turned_in _ (by unfold UnderRobot; norm_num))
      ⟨by decide +kernel, by decide +kernel⟩ fun x hx _ => turned_in x hx) turned_not_fits <;> decide +kernel

end CostMapModel

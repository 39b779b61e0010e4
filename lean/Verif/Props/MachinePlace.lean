import Verif.Props.PlaceCheck
import Verif.Props.MachineRebase

/-! # C116: whether a robot fits, on the machine -/

set_option linter.unusedSectionVars false

namespace CostMapModel
open Inflation CostMap

section
variable {K : Type} [Field K] [LinearOrder K] [IsStrictOrderedRing K] [FloorRing K]
variable {w : World K} {F : Fmt K} {rf : K → K} {pop : Pop K} {hyp : Nat → Nat → K} {computer : K → Cost} {radius : K} {m : CostMap K}
  {o : Inflater K}

/-- Reading at a position clearly inside a map that was not moved reads the cell computed for it. -/
theorem clearly_at {rd : K → K} (hrd : DoublePrecision rd) (h : m.GeoRd rd) (ht : m.Tame) (hm : m.Small) {p : Vec K} (hp : m.Clearly rd p)
    (l : String) : m.atPositionI rd l p = m.at l (m.getIndexRd rd p).1 := by
  rw [(C79_access hrd h ht hm (C79_inside_near hrd h ht hm hp.inside) l 0).1]
  unfold atPositionRd
  rw [show m.getIndexRd rd p = ((m.getIndexRd rd p).1, m.isInsideRd rd p) from rfl, hp.inside]
  rfl

/-- The cells computed for two positions clearly inside a map that was not moved. -/
theorem clearly_apart {rd : K → K} (hrd : DoublePrecision rd) (h : m.GeoRd rd) (ht : m.Tame43) (hs : m.startIndex = ⟨0, 0⟩) {p x : Vec K}
    (hp : m.Clearly rd p) (hx : m.Clearly rd x) {n : Nat} (hd : |x.x - p.x| + |x.y - p.y| ≤ ((n : K) - 2) * m.resolution) :
    manhattan (m.getIndexRd rd p).1 (m.getIndexRd rd x).1 ≤ n := by
  obtain ⟨-, ⟨p1, p2⟩, p3, p4⟩ := clearly_cell hrd h ht hs hp
  obtain ⟨-, ⟨x1, x2⟩, x3, x4⟩ := clearly_cell hrd h ht hs hx
  have hr := h.res_pos
  have e : ∀ c u v : K, |(c - u) / m.resolution - (c - v) / m.resolution| = |v - u| / m.resolution := by
    intro c u v
    rw [← sub_div, abs_div, abs_of_pos hr]
    congr 2; ring
  have ex := e m.corner.x p.x x.x
  have ey := e m.corner.y p.y x.y
  have hd : |x.x - p.x| / m.resolution + |x.y - p.y| / m.resolution ≤ (n : K) - 2 := by
    rw [← add_div, div_le_iff₀ hr]; exact hd
  rw [← ex, ← ey] at hd
  generalize (m.getIndexRd rd p).1 = i at *
  generalize (m.getIndexRd rd x).1 = j at *
  have near : ∀ (a b : K) (u v : Int), (u : K) - 1 / 32 ≤ a → a ≤ u + 1 + 1 / 32 → (v : K) - 1 / 32 ≤ b → b ≤ v + 1 + 1 / 32 →
      ((u - v).natAbs : K) ≤ |a - b| + 1 + 1 / 16 := by
    intro a b u v h1 h2 h3 h4
    rw [Nat.cast_natAbs, Int.cast_abs, Int.cast_sub, abs_le]
    constructor <;> linarith [neg_abs_le (a - b), le_abs_self (a - b)]
  have nx := near _ _ _ _ p1 p2 x1 x2
  have ny := near _ _ _ _ p3 p4 x3 x4
  unfold manhattan
  have : (((i.x - j.x).natAbs + (i.y - j.y).natAbs : Nat) : K) < ((n + 1 : Nat) : K) := by push_cast; linarith
  have := Nat.cast_lt.mp this
  omega

/-- C116 on the machine. Whatever calls have made the map, if its buffer starts at zero: inflate it and look at the cost of one position clearly inside
it. The check always gives an answer; if the inflation gives at least the threshold up to `n` cells and the answer is "clear", then a round robot
whose radius is at most `1/√2` of `n - 2` cells fits there. -/
theorem C116_fits_machine (hrd : DoublePrecision F.rd) (hF : IntsExact F.rd) (htop : 2 ^ 31 ≤ F.top) (hm : HeldI w F rf m)
    (hs : m.startIndex = ⟨0, 0⟩) {ls : String} (hls : m.exists ls = true) (ld : String) (h0 : 0 ≤ radius)
    (htr : |F.rd (radius / m.resolution)| < F.top) (hn : ⌈F.rd (radius / m.resolution)⌉.toNat < 2 ^ 32 - 2) (hpop : PopOk pop)
    (hh : HypOk hyp ⌈F.rd (radius / m.resolution)⌉.toNat) (ho : UsedU F rf hyp computer m.resolution o) (log : List Idx) {n : Nat}
    (hnr : (n : K) * m.resolution ≤ radius * (1 - 1 / 2 ^ 53)) {thr : Cost}
    (hthr : ∀ i q, sqDist i q ≤ n * n → thr ≤ inflationCostRd rf hyp computer m.resolution i q) {ρ : K} (h2 : 2 ≤ n)
    (hρ : 2 * ρ ^ 2 ≤ (((n : K) - 2) * m.resolution) ^ 2) :
    ∃ st', inflateU F rf pop hyp ls ld (.fin radius) computer ⟨o, m, log⟩ = (.ok (), st') ∧
      ∀ p, m.Clearly F.rd p → ∃ r, placeClearI F.rd st'.map ld thr p = .ok r ∧ (r = true → m.RobotFitsI F.rd ls ρ p) := by
  have hw := held_inWorld hrd hF htop hm
  have hc := hw.coherent
  have hX : m.size.x < 2 ^ 31 := lt_of_le_of_lt hw.small.x (by norm_num)
  have hY : m.size.y < 2 ^ 31 := lt_of_le_of_lt hw.small.y (by norm_num)
  obtain ⟨st', h1, hgeo, -, -, -, hat⟩ := C94_reach_partial hF hrd hc hX hY hw.geo.res_pos hls ld h0 htr hn hpop hh ho log
  obtain ⟨st'', h1', hman⟩ := C94_covers_partial hF hrd hc hX hY hw.geo.res_pos hls ld h0 htr hn hpop hh ho log
  obtain rfl : st' = st'' := by rw [h1] at h1'; exact (Prod.mk.inj h1').2
  obtain ⟨s1, s2, s3, s4, s5, s6⟩ := same_machine (rd := F.rd) hgeo
  refine ⟨st', h1, fun p hp => ?_⟩
  have hin := (clearly_cell hrd hw.geo hw.tame43 hs hp).1
  obtain ⟨v, hv⟩ := hc.at_ok hls hin
  obtain ⟨c, hcv⟩ : ∃ c, st'.map.at ld (m.getIndexRd F.rd p).1 = .ok c := by
    rcases hat _ v hin hv with h | ⟨q, -, -, h⟩
    · exact ⟨_, h⟩
    · exact ⟨_, h⟩
  have hread : st'.map.atPositionI F.rd ld p = .ok c := by
    rw [clearly_at hrd (s1 hw.geo) (tame_of_tame43 (s1 hw.geo) (s2 hw.tame43)) (s3 hw.small) (s6 p hp), s5, hcv]
  refine ⟨decide (c < thr), by unfold placeClearI; rw [hread]; rfl, fun hr x hx hxc hlet => ?_⟩
  have hlt : c < thr := of_decide_eq_true hr
  rw [clearly_at hrd hw.geo hw.tame hw.small hxc] at hlet
  have hxin := (clearly_cell hrd hw.geo hw.tame43 hs hxc).1
  have hR : (2 : K) ≤ n := by exact_mod_cast h2
  have hd := clearly_apart hrd hw.geo hw.tame43 hs hp hxc (n := n) (sum_of_sq hx (mul_nonneg (by linarith) hw.geo.res_pos.le) hρ)
  obtain ⟨q, hq, hsq, hval⟩ := hman _ v _ hin hv ⟨hxin, hlet⟩ (by
    have : (manhattan (m.getIndexRd F.rd p).1 (m.getIndexRd F.rd x).1 : K) ≤ n := by exact_mod_cast hd
    exact (mul_le_mul_of_nonneg_right this hw.geo.res_pos.le).trans hnr)
  rw [hcv] at hval
  injection hval with hval
  refine UInt8.not_le.mpr hlt ?_
  rw [hval]
  exact UInt8.le_trans (hthr _ q (hsq.trans (Nat.mul_le_mul hd hd))) (combined_ge _ _)

/-- C116 on the machine, for the whole of a straight way: at every position within a thirty-second of a cell of a way that is found clear a round
robot fits whose radius is at most `1/√2` of `n - 4` cells. -/
theorem C116_way_machine (hrd : DoublePrecision F.rd) (hF : IntsExact F.rd) (htop : 2 ^ 31 ≤ F.top) (hm : HeldI w F rf m)
    (hs : m.startIndex = ⟨0, 0⟩) {ls : String} (hls : m.exists ls = true) (ld : String) (h0 : 0 ≤ radius)
    (htr : |F.rd (radius / m.resolution)| < F.top) (hn : ⌈F.rd (radius / m.resolution)⌉.toNat < 2 ^ 32 - 2) (hpop : PopOk pop)
    (hh : HypOk hyp ⌈F.rd (radius / m.resolution)⌉.toNat) (ho : UsedU F rf hyp computer m.resolution o) (log : List Idx) {n : Nat}
    (hnr : (n : K) * m.resolution ≤ radius * (1 - 1 / 2 ^ 53)) {thr : Cost}
    (hthr : ∀ i q, sqDist i q ≤ n * n → thr ≤ inflationCostRd rf hyp computer m.resolution i q) {ρ : K} (h4 : 4 ≤ n)
    (hρ : 2 * ρ ^ 2 ≤ (((n : K) - 4) * m.resolution) ^ 2) (sqrt : K → K) :
    ∃ st', inflateU F rf pop hyp ls ld (.fin radius) computer ⟨o, m, log⟩ = (.ok (), st') ∧
      ∀ a b, m.Clearly F.rd a → m.Clearly F.rd b →
        ∃ r, (∀ fuel, 1 ≤ fuel → wayClearI F.rd sqrt fuel st'.map ld thr a b = .ok r) ∧
          (r = true → ∀ p, NearSegment (m.resolution / 32) a b p → m.Clearly F.rd p → m.RobotFitsI F.rd ls ρ p) := by
  have hw := held_inWorld hrd hF htop hm
  obtain ⟨st', h1, h⟩ := C114_clearance hrd hF htop hm hs hls ld h0 htr hn hpop hh ho log hnr hthr sqrt
  refine ⟨st', h1, fun a b ha hb => ?_⟩
  obtain ⟨r, hr, h⟩ := h a b ha hb
  refine ⟨r, hr, fun hrt p hp hpc x hx hxc hlet => ?_⟩
  rw [clearly_at hrd hw.geo hw.tame hw.small hxc] at hlet
  have hfar := h hrt p hp hpc _ ⟨(clearly_cell hrd hw.geo hw.tame43 hs hxc).1, hlet⟩
  have hR : (4 : K) ≤ n := by exact_mod_cast h4
  have hd := clearly_apart hrd hw.geo hw.tame43 hs hpc hxc (n := n - 2)
    ((sum_of_sq hx (mul_nonneg (by linarith) hw.geo.res_pos.le) hρ).trans (by
      rw [Nat.cast_sub (by omega)]
      exact mul_le_mul_of_nonneg_right (by push_cast; linarith) hw.geo.res_pos.le))
  omega

/-- C116 on the machine for every map whose geometry fits the world, moved or not, through the copy of C115. -/
theorem C116_moved_machine (hrd : DoublePrecision F.rd) (hF : IntsExact F.rd) (htop : 2 ^ 31 ≤ F.top) (hm : HeldI w F rf m)
    (hfit : w.Geometry m.length m.resolution m.position) {ls : String} (hls : m.exists ls = true) (ld : String) (h0 : 0 ≤ radius)
    (htr : |F.rd (radius / m.resolution)| < F.top) (hn : ⌈F.rd (radius / m.resolution)⌉.toNat < 2 ^ 32 - 2) (hpop : PopOk pop)
    (hh : HypOk hyp ⌈F.rd (radius / m.resolution)⌉.toNat) (ho : UsedU F rf hyp computer m.resolution o) (log : List Idx) {n : Nat}
    (hnr : (n : K) * m.resolution ≤ radius * (1 - 1 / 2 ^ 53)) {thr : Cost}
    (hthr : ∀ i q, sqDist i q ≤ n * n → thr ≤ inflationCostRd rf hyp computer m.resolution i q) {ρ : K} (h4 : 4 ≤ n)
    (hρ : 2 * ρ ^ 2 ≤ (((n : K) - 4) * m.resolution) ^ 2) (sqrt : K → K) :
    ∃ c st', rebaseI F.rd m = (.ok (), c) ∧ inflateU F rf pop hyp ls ld (.fin radius) computer ⟨o, c, log⟩ = (.ok (), st') ∧
      (∀ p, m.Clearly F.rd p → ∃ r, placeClearI F.rd st'.map ld thr p = .ok r ∧ (r = true → m.RobotFitsI F.rd ls ρ p)) ∧
      ∀ a b, m.Clearly F.rd a → m.Clearly F.rd b →
        ∃ r, (∀ fuel, 1 ≤ fuel → wayClearI F.rd sqrt fuel st'.map ld thr a b = .ok r) ∧
          (r = true → ∀ p, NearSegment (m.resolution / 32) a b p → m.Clearly F.rd p → m.RobotFitsI F.rd ls ρ p) := by
  obtain ⟨c, e, nh, ns, -, -, nr, -, nx, nc, nat⟩ := C115_same_machine hrd hF htop hm hfit
  have hfits : ∀ {p}, c.RobotFitsI F.rd ls ρ p → m.RobotFitsI F.rd ls ρ p := fun h x hx hxc => by
    rw [← nat ls x hls hxc]; exact h x hx (nc x hxc)
  have hpos := (held_inWorld hrd hF htop nh).geo.res_pos
  rw [← nr] at htr hn hh ho hnr hthr hρ ⊢
  have hls' : c.exists ls = true := by rw [nx, hls]
  have hR : (4 : K) ≤ n := by exact_mod_cast h4
  obtain ⟨st', h1, h⟩ := C116_fits_machine hrd hF htop nh ns hls' ld h0 htr hn hpop hh ho log hnr hthr (by omega)
    (hρ.trans (pow_le_pow_left₀ (mul_nonneg (by linarith) hpos.le) (mul_le_mul_of_nonneg_right (by linarith) hpos.le) 2))
  obtain ⟨st'', h1', h'⟩ := C116_way_machine hrd hF htop nh ns hls' ld h0 htr hn hpop hh ho log hnr hthr h4 hρ sqrt
  obtain rfl : st' = st'' := by rw [h1] at h1'; exact (Prod.mk.inj h1').2
  refine ⟨c, st', e, h1, fun p hp => ?_, fun a b ha hb => ?_⟩
  · obtain ⟨r, hr, h⟩ := h p (nc p hp)
    exact ⟨r, hr, fun hrt => hfits (h hrt)⟩
  · obtain ⟨r, hr, h⟩ := h' a b (nc a ha) (nc b hb)
    exact ⟨r, hr, fun hrt p hp hpc => hfits (h hrt p hp (nc p hpc))⟩

end

open Demo in
/-- The obstacle is at (0.3, -0.2) of the map whose buffer starts at cell (2, 5). On the copy, inflated by 0.55 m, a robot of 7 cm next to it is found
not to fit. -/
example : ∃ n st', rebaseI toDouble turnedPillar = (.ok (), n) ∧ turnedPillar.startIndex = ⟨2, 5⟩ ∧
    inflateU binary64 toFloat pop (fun i j => toFloat (hypot i j)) "a" "t" (.fin (11 / 20)) (fun _ => 253) ⟨Inflater.new, n, []⟩ = (.ok (), st') ∧
    placeClearI toDouble st'.map "t" 253 ⟨2 / 10, -2 / 10⟩ = .ok false := by
  have hn : ⌈binary64.rd (11 / 20 / turnedPillar.resolution)⌉.toNat = 6 := by decide +kernel
  obtain ⟨n, st', e, h1, h2, -⟩ := C116_moved_machine (F := binary64) (rf := toFloat) (radius := 11 / 20) (computer := fun _ => 253) (thr := 253)
    (n := 5) (ρ := 7 / 100) toDouble_precision toDouble_ints top64 turnedPillar_held
    ⟨by decide +kernel, by decide +kernel, by decide +kernel, by decide +kernel, by decide +kernel, by unfold PointIn; decide +kernel⟩
    (ls := "a") (by decide +kernel) "t" (by norm_num)
    (by decide +kernel) (by rw [hn]; norm_num) pop_ok (by rw [hn]; exact (C91_hypot hypot_ok _).2 (by norm_num)) .new []
    (by decide +kernel) (fun _ _ _ => UInt8.le_refl _) (by norm_num) (by decide +kernel) rootDouble
  refine ⟨n, st', e, by decide +kernel, h1, ?_⟩
  obtain ⟨r, hr, h⟩ := h2 ⟨2 / 10, -2 / 10⟩ (turnedPillar_clearly _ _ (by decide +kernel))
  cases r
  · exact hr
  · refine absurd (h rfl ⟨26 / 100, -2 / 10⟩ (by unfold UnderRobot; norm_num) (turnedPillar_clearly _ _ (by decide +kernel))) ?_
    rw [not_not]
    decide +kernel

end CostMapModel

import Verif.Spec.InflationFloat
import Verif.Props.Inflation
import Verif.Lemmas.Rounded
import Verif.Lemmas.InflationUse
import Verif.Lemmas.History
import Verif.Props.Deflate

/-!
# Inflation in floating point: C91

`C91_hypot` discharges what C38 to C44 assume of `std::hypot`, for `float`s and radii of less than 2048 cells. `C91_same` says that a
call in floating point does what a call with exact arithmetic does with the rounded radius, so that these properties carry over;
`C91_reach` and `C91_covers` are what they give. What does not carry over is that the radius and the inscribed radius are met exactly
(D44).
-/

set_option linter.unusedSectionVars false

namespace CostMapModel
open CostMap Inflation

/-- Rounding to `p` bits has a relative error of at most `2^-p`. -/
theorem binRound_precision {p : Nat} (hp : 0 < p) (x : ℚ) : |binRound p x - x| ≤ |x| / 2 ^ p := by
  have two : (2 : ℚ) ≠ 0 := by norm_num
  by_cases h0 : x = 0
  · subst h0; simp [binRound]
  have hn : 0 < x.num.natAbs := Int.natAbs_pos.2 (Rat.num_ne_zero.2 h0)
  have hd' : (0 : ℚ) < x.den := by exact_mod_cast x.den_pos
  have habs : |x| = (x.num.natAbs : ℚ) / x.den := by
    rw [Nat.cast_natAbs]
    conv_lhs => rw [← Rat.num_div_den x]
    rw [abs_div, abs_of_pos hd']
    push_cast
    rfl
  obtain ⟨e1, e2⟩ := binExponent_spec hn x.den_pos
  rw [← habs] at e1 e2
  set e := binExponent x.num.natAbs x.den
  have g1 : (2 : ℚ) ^ (p - 1 : Int) ≤ |x| * 2 ^ ((p : Int) - 1 - e) := by
    calc (2 : ℚ) ^ (p - 1 : Int) = 2 ^ e * 2 ^ ((p : Int) - 1 - e) := by rw [← zpow_add₀ two]; congr 1; ring
      _ ≤ _ := mul_le_mul_of_nonneg_right e1 (two_zpow_pos _).le
  have g2 : |x| * 2 ^ ((p : Int) - 1 - e) < (2 : ℚ) ^ (p : Int) := by
    calc _ < (2 : ℚ) ^ (e + 1) * 2 ^ ((p : Int) - 1 - e) := mul_lt_mul_of_pos_right e2 (two_zpow_pos _)
      _ = _ := by rw [← zpow_add₀ two]; congr 1; ring
  have hq := abs_sub_round (|x| * 2 ^ ((p : Int) - 1 - e))
  have hr := (nearest_of_scaled (p := p) hp g1 g2 hq).1
  set z : ℚ := (round (|x| * 2 ^ ((p : Int) - 1 - e)) : ℚ) * 2 ^ (-((p : Int) - 1 - e)) with hz
  have hu : (0 : ℚ) < 2 ^ (-((p : Int) - 1 - e)) := two_zpow_pos _
  have hxz : |x| - z = (|x| * 2 ^ ((p : Int) - 1 - e) - round (|x| * 2 ^ ((p : Int) - 1 - e))) * 2 ^ (-((p : Int) - 1 - e)) := by
    rw [sub_mul, mul_assoc, ← zpow_add₀ two]; simp [hz]
  have hb : |(|x| - z)| ≤ |x| / 2 ^ p := by
    rw [hxz, abs_mul, abs_of_pos hu]
    have h1 : (2 : ℚ) ^ (-((p : Int) - 1 - e)) * 2 ^ p ≤ 2 * |x| := by
      have : (2 : ℚ) ^ (-((p : Int) - 1 - e)) * 2 ^ p = 2 * 2 ^ e := by
        rw [← zpow_natCast, ← zpow_add₀ two, ← zpow_one_add₀ two]; congr 1; ring
      rw [this]; linarith
    calc _ ≤ 1 / 2 * (2 : ℚ) ^ (-((p : Int) - 1 - e)) := mul_le_mul_of_nonneg_right hq hu.le
      _ ≤ _ := by rw [le_div_iff₀ (by positivity)]; linarith
  have best := (binRound_nearest (p := p) hp x).2
  rw [abs_sub_comm]
  rcases le_total 0 x with h | h
  · rw [abs_of_nonneg h] at hb
    have := best z hr
    rw [abs_of_nonneg h]
    exact this.trans hb
  · have := best (-z) hr.neg
    rw [abs_of_nonpos h] at hb ⊢
    refine this.trans ?_
    rwa [show x - -z = -(-x - z) by ring, abs_neg]

theorem toFloat_precision : FloatPrecision toFloat := fun x => binRound_precision (by norm_num) x

/-- Rounding to nearest is monotone and keeps 0. -/
theorem binRound_ok {p : Nat} (hp : 0 < p) : RoundOk (binRound p) where
  zero := by simp [binRound]
  mono := by
    intro x y hxy
    by_contra hc
    push Not at hc
    obtain ⟨rx, bx⟩ := binRound_nearest hp x
    obtain ⟨ry, bY⟩ := binRound_nearest hp y
    have h1 := bx _ ry
    have h2 := bY _ rx
    rcases hxy.eq_or_lt with e | e
    · rw [e] at hc; exact lt_irrefl _ hc
    · generalize binRound p x = a at *
      generalize binRound p y = b at *
      have h3 := mul_self_le_mul_self (abs_nonneg _) h1
      have h4 := mul_self_le_mul_self (abs_nonneg _) h2
      rw [abs_mul_abs_self, abs_mul_abs_self] at h3 h4
      nlinarith

/-- A number very close to a whole number that a `float` can hold is rounded to it. -/
theorem toFloat_near_nat {k : Nat} (hk : 0 < k) (hk' : k < 2 ^ 24) {x : ℚ} (h : |x - k| < k / 2 ^ 26) : toFloat x = k := by
  have hk0 : (0 : ℚ) < k := by exact_mod_cast hk
  obtain ⟨⟨m, e, hm, hy⟩, hbest⟩ := binRound_nearest (p := 24) (by norm_num) x
  have hrep : Representable 24 (k : ℚ) := ⟨k, 0, by rw [abs_of_nonneg (by positivity)]; exact_mod_cast hk', by simp⟩
  have h1 := hbest _ hrep
  show binRound 24 x = k
  obtain ⟨y, hye⟩ : ∃ y, y = binRound 24 x := ⟨_, rfl⟩
  rw [← hye] at hy h1 ⊢
  have h2 : |y - k| < k / 2 ^ 25 := by
    have := abs_sub_le y x k
    rw [abs_sub_comm y x] at this
    have e2 : (k : ℚ) / 2 ^ 25 = k / 2 ^ 26 + k / 2 ^ 26 := by ring
    rw [e2]; linarith
  by_contra hne
  -- `y` and `k` are multiples of the same power of two
  have hu := two_zpow_pos e
  have key : ∀ (q : ℚ) (a b : Int), 0 < q → y = a * q → (k : ℚ) = b * q → q ≤ |y - k| := by
    intro q a b hq ha hb
    have hab : a - b ≠ 0 := by
      intro h0
      apply hne
      rw [ha, hb]
      have : a = b := by omega
      rw [this]
    have : (1 : ℚ) ≤ |((a - b : Int) : ℚ)| := by
      rw [← Int.cast_abs]; exact_mod_cast Int.one_le_abs hab
    have e3 : y - k = ((a - b : Int) : ℚ) * q := by rw [ha, hb]; push_cast; ring
    rw [e3, abs_mul, abs_of_pos hq]
    nlinarith
  rcases le_or_gt 0 e with he | he
  · obtain ⟨n, rfl⟩ := Int.eq_ofNat_of_zero_le he
    have h3 := key 1 (m * 2 ^ n) k one_pos (by rw [hy]; push_cast; simp) (by simp)
    have : (k : ℚ) / 2 ^ 25 ≤ 1 := by
      rw [div_le_one (by positivity)]
      have : (k : ℚ) ≤ 2 ^ 24 := by exact_mod_cast hk'.le
      linarith [show (2 : ℚ) ^ 24 ≤ 2 ^ 25 by norm_num]
    linarith
  · obtain ⟨n, hn⟩ := Int.eq_ofNat_of_zero_le (show 0 ≤ -e by omega)
    have he' : e = -(n : Int) := by omega
    have h3 := key (2 ^ e) m (k * 2 ^ n) hu hy (by
      rw [he', zpow_neg, zpow_natCast]; push_cast; field_simp)
    -- the significand is bounded, so the step is not small
    have h4 : (k : ℚ) / 2 ≤ y := by
      have := (abs_lt.mp h2).1
      have : (k : ℚ) / 2 ^ 25 ≤ k / 2 := by gcongr; norm_num
      linarith
    have h5 : y < 2 ^ 24 * 2 ^ e := by
      rw [hy]
      have : (m : ℚ) < 2 ^ 24 := by exact_mod_cast (abs_lt.mp hm).2
      exact mul_lt_mul_of_pos_right this hu
    have h6 : (k : ℚ) / 2 ^ 25 < 2 ^ e := by
      rw [div_lt_iff₀ (by positivity)]
      linarith
    linarith

/-- The distances in the cache compare with whole numbers as the exact distances do, for radii below 4096 cells: what C38 to C44 ask
of `std::hypot` holds of `float`s. -/
theorem hypOk_float {h : Nat → Nat → ℚ} (hh : HypotDouble h) {n : Nat} (hn : n < 4096) :
    HypOk (fun i j => toFloat (h i j)) n := by
  intro i j k _ _ hk
  obtain ⟨d0, hd⟩ := hh i j
  generalize hs : i * i + j * j = s at hd
  show toFloat (h i j) ≤ (k : ℚ) ↔ s ≤ k * k
  have hk1 : (k : ℚ) ≤ 4095 := by exact_mod_cast (show k ≤ 4095 by omega)
  have hk0 : (0 : ℚ) ≤ k := by positivity
  by_cases hkk : s = k * k
  · -- a whole distance
    have : toFloat (h i j) = k := by
      rcases Nat.eq_zero_or_pos k with h0 | h0
      · subst h0
        have : s = 0 := by omega
        rw [this] at hd
        simp only [Nat.cast_zero, sub_zero, zero_div] at hd
        have h1 : h i j * h i j = 0 := abs_eq_zero.mp (le_antisymm hd (abs_nonneg _))
        have h2 : h i j = 0 := by nlinarith
        rw [h2]; simp [toFloat, binRound]
      · apply toFloat_near_nat h0 (by omega)
        have hkp : (0 : ℚ) < k := by exact_mod_cast h0
        rw [hkk] at hd
        push_cast at hd
        have e1 : h i j * h i j - (k : ℚ) * k = (h i j - k) * (h i j + k) := by ring
        rw [e1, abs_mul, abs_of_pos (by linarith : 0 < h i j + k)] at hd
        have h3 : |h i j - k| * k ≤ |h i j - k| * (h i j + k) := mul_le_mul_of_nonneg_left (by linarith) (abs_nonneg _)
        have h4 : |h i j - k| ≤ k / 2 ^ 50 := by
          rw [le_div_iff₀ (by positivity)]
          have h5 : |h i j - k| * k ≤ k * k / 2 ^ 50 := h3.trans hd
          rw [le_div_iff₀ (by positivity)] at h5
          nlinarith
        refine lt_of_le_of_lt h4 ?_
        rw [div_lt_div_iff_of_pos_left hkp (by positivity) (by positivity)]
        norm_num
    rw [this]
    exact ⟨fun _ => hkk.le, fun _ => le_rfl⟩
  · obtain ⟨g1, g2⟩ := abs_le.mp hd
    obtain ⟨-, hbest⟩ := binRound_nearest (p := 24) (by norm_num) (h i j)
    have hmono := (binRound_ok (p := 24) (by norm_num)).mono (a := h i j) (b := k)
    change ∀ z, Representable 24 z → |h i j - toFloat (h i j)| ≤ |h i j - z| at hbest
    generalize h i j = d at d0 g1 g2 hbest hmono
    constructor
    · intro hy
      by_contra hlt
      have hs1 : (k : ℚ) * k + 1 ≤ s := by exact_mod_cast (show k * k + 1 ≤ s by omega)
      have hrep : Representable 24 ((k : ℚ) + 1 / 2 ^ 12) := by
        refine ⟨k * 4096 + 1, -12, ?_, ?_⟩
        · rw [abs_of_nonneg (by positivity)]
          norm_num
          omega
        · push_cast
          rw [zpow_neg]
          norm_num
          ring
      have h1 := hbest _ hrep
      generalize toFloat d = y at hy h1
      have hbig : (k : ℚ) + 1 / 2 ^ 13 < d := by
        by_contra hc
        push Not at hc
        have a2 : d * d ≤ (k + 1 / 2 ^ 13) * (k + 1 / 2 ^ 13) := mul_self_le_mul_self d0 hc
        have a3 : ((k : ℚ) * k + 1) * (1 - 1 / 2 ^ 50) ≤ s * (1 - 1 / 2 ^ 50) :=
          mul_le_mul_of_nonneg_right hs1 (by norm_num)
        have a6 : (k : ℚ) * k ≤ 4095 * 4095 := mul_self_le_mul_self hk0 hk1
        norm_num at *
        nlinarith
      rw [abs_of_nonneg (by norm_num at hbig ⊢; linarith)] at h1
      rcases abs_cases (d - (k + 1 / 2 ^ 12)) with ⟨e, _⟩ | ⟨e, _⟩ <;> rw [e] at h1 <;> norm_num at * <;> linarith
    · intro hle
      have hs1 : (s : ℚ) + 1 ≤ k * k := by exact_mod_cast (show s + 1 ≤ k * k by omega)
      have hs0 : (0 : ℚ) ≤ s := by positivity
      have hkp : 0 < k := by
        rcases Nat.eq_zero_or_pos k with h0 | h0
        · subst h0; omega
        · exact h0
      have e : toFloat (k : ℚ) = k := toFloat_near_nat hkp (by omega) (by
        have : (0 : ℚ) < k := by exact_mod_cast hkp
        simp only [sub_self, abs_zero]; positivity)
      rw [← e]
      apply hmono
      by_contra hc
      push Not at hc
      have a1 : (k : ℚ) * k < d * d := mul_self_lt_mul_self hk0 hc
      have a6 : (k : ℚ) * k ≤ 4095 * 4095 := mul_self_le_mul_self hk0 hk1
      norm_num at *
      nlinarith

/-- The `float` nearest to the distance of 4096 rows and one column is 4096. -/
theorem toFloat_4096 {d : ℚ} (h1 : 4096 ≤ d) (h2 : d < 4096 + 1 / 2 ^ 12) : toFloat d = 4096 := by
  obtain ⟨⟨m, e, hm, hy⟩, hbest⟩ := binRound_nearest (p := 24) (by norm_num) d
  have hrep : Representable 24 (4096 : ℚ) := ⟨4096, 0, by decide, by norm_num⟩
  have hb := hbest _ hrep
  have hlow := (binRound_ok (p := 24) (by norm_num)).mono h1
  rw [show binRound 24 4096 = 4096 by decide +kernel] at hlow
  show binRound 24 d = 4096
  generalize binRound 24 d = y at hy hb hlow
  by_contra hne
  have hlt : 4096 < y := lt_of_le_of_ne hlow (Ne.symm hne)
  have hu : (0 : ℚ) < 2 ^ e := by positivity
  have hm1 : (m : ℚ) < 2 ^ 24 := by exact_mod_cast (abs_lt.mp hm).2
  have he : -12 < e := by
    by_contra hc
    push Not at hc
    have : (2 : ℚ) ^ e ≤ 2 ^ (-12 : ℤ) := zpow_le_zpow_right₀ (by norm_num) hc
    have h5 : (m : ℚ) * 2 ^ e < 2 ^ 24 * 2 ^ e := mul_lt_mul_of_pos_right hm1 hu
    rw [← hy] at h5
    rw [zpow_neg] at this
    norm_num at *
    linarith
  obtain ⟨t, ht⟩ : ∃ t : Nat, e = t - 11 := ⟨(e + 11).toNat, by omega⟩
  have hz : y = ((m * 2 ^ t : Int) : ℚ) / 2048 := by
    rw [hy, ht, zpow_sub₀ (by norm_num)]
    push_cast
    rw [zpow_natCast]
    ring
  have h6 : 4096 * 2048 + 1 ≤ m * 2 ^ t := by
    have : (4096 * 2048 : ℚ) < ((m * 2 ^ t : Int) : ℚ) := by rw [hz, lt_div_iff₀ (by norm_num)] at hlt; exact hlt
    have : (4096 * 2048 : Int) < m * 2 ^ t := by exact_mod_cast this
    omega
  have h7 : (4096 : ℚ) + 1 / 2 ^ 11 ≤ y := by
    rw [hz, le_div_iff₀ (by norm_num)]
    have : ((4096 * 2048 + 1 : Int) : ℚ) ≤ ((m * 2 ^ t : Int) : ℚ) := by exact_mod_cast h6
    refine le_trans ?_ this
    norm_num
  rw [abs_of_nonneg (by linarith : (0 : ℚ) ≤ d - 4096), abs_of_nonpos (by norm_num at *; linarith)] at hb
  norm_num at *
  linarith

/-- C91. The distances in the cache compare with whole numbers as the exact distances do, which is what C38 to C44 ask of `std::hypot`, exactly
for radii below 4096 cells. A cell 4096 rows and one column away counts as within a radius of 4096 cells. -/
theorem C91_hypot {h : Nat → Nat → ℚ} (hh : HypotDouble h) (n : Nat) : HypOk (fun i j => toFloat (h i j)) n ↔ n < 4096 := by
  refine ⟨fun hok => ?_, hypOk_float hh⟩
  by_contra hn
  push Not at hn
  obtain ⟨d0, hd⟩ := hh 4096 1
  have h1 : toFloat (h 4096 1) = 4096 := by
    generalize h 4096 1 = d at d0 hd
    norm_num at hd
    obtain ⟨g1, g2⟩ := abs_le.mp hd
    apply toFloat_4096 <;> norm_num <;> nlinarith
  have h2 := (hok 4096 1 4096 (by omega) (by omega) hn).mp (by show toFloat (h 4096 1) ≤ _; rw [h1]; norm_num)
  norm_num at h2

section
variable {K : Type} [Field K] [LinearOrder K] [IsStrictOrderedRing K] [FloorRing K] {rd rf : K → K}

/-- C91. A call in floating point is a call with exact arithmetic, with the rounded radius and a computer that rounds the distance. -/
theorem C91_same (rd rf : K → K) (pop : Pop K) (hyp : Nat → Nat → K) (ls ld : String) (radius : K) (computer : K → Cost)
    {m : CostMap K} (hr : 0 < m.resolution) (o : Inflater K) (log : List Idx) :
    inflateRd rd rf pop hyp ls ld radius computer ⟨o, m, log⟩ =
      inflate pop hyp ls ld (rd (radius / m.resolution) * m.resolution)
        (fun x => computer (rf (rf m.resolution * (x / m.resolution)))) ⟨o, m, log⟩ := by
  unfold inflateRd inflate
  refine Act.bind_congr rfl fun _ s1 h1 => ?_
  have e1 : s1.map.resolution = m.resolution := by rw [← (Prod.mk.inj h1).2]
  refine Act.bind_congr rfl fun a s2 h2 => ?_
  have e2 : s2.map.resolution = m.resolution := by rw [← (Prod.mk.inj h2).2]; exact e1
  refine Act.bind_congr rfl fun _ s3 h3 => ?_
  have e3 : s3.map.resolution = m.resolution := by
    rw [← (Prod.mk.inj h3).2]
    exact (CostMap.add_geometry ld a s2.map).resolution.trans e2
  refine Act.bind_congr ?_ fun _ s4 h4 => rfl
  unfold prepareRd prepare
  have hc : cellsOfRd rd radius s3.map.resolution = cellsOf (rd (radius / m.resolution) * m.resolution) s3.map.resolution := by
    unfold cellsOfRd cellsOf
    rw [e3, if_neg hr.ne', if_neg hr.ne', mul_div_cancel_right₀ _ hr.ne']
  simp only []
  rw [hc]
  have hcache : ∀ o : Inflater K, computeCachesRd rf hyp computer s3.map.resolution o =
      computeCaches hyp (fun x => computer (rf (rf m.resolution * (x / m.resolution)))) s3.map.resolution o := by
    intro o
    unfold computeCachesRd computeCaches
    rw [e3]
    simp only [mul_div_cancel_left₀ _ hr.ne']
  simp only [hcache]
  cases cellsOf (rd (radius / m.resolution) * m.resolution) s3.map.resolution <;> rfl

theorem UsedRd.used {hyp : Nat → Nat → K} {computer : K → Cost} {res : K} (hr : 0 < res) {o : Inflater K}
    (h : UsedRd rd rf hyp computer res o) :
    Used hyp (fun x => computer (rf (rf res * (x / res)))) res o := by
  induction h with
  | new => exact .new
  | call h pop ls ld radius m log hm hrun ih =>
    subst hm
    rw [C91_same rd rf pop hyp ls ld radius computer hr] at hrun
    exact .call ih pop ls ld _ m log rfl hrun

theorem radiusInCells_rd {res : K} (hr : 0 < res) (radius : K) :
    radiusInCells (rd (radius / res) * res) res = ⌈rd (radius / res)⌉.toNat := by
  unfold radiusInCells
  rw [mul_div_cancel_right₀ _ hr.ne']

variable {pop : Pop K} {hyp : Nat → Nat → K} {computer : K → Cost} {radius : K} {m : CostMap K} {o : Inflater K}

/-- The rounded number of cells is less than one cell more than the radius. -/
theorem cells_lt (hrd : DoublePrecision rd) {res : K} (hr : 0 < res) (h0 : 0 ≤ radius) :
    ((⌈rd (radius / res)⌉.toNat : Nat) : K) * res < radius * (1 + 1 / 2 ^ 53) + res := by
  have q0 : 0 ≤ radius / res := div_nonneg h0 hr.le
  have e := hrd (radius / res)
  rw [abs_of_nonneg q0, abs_le] at e
  have hx : 0 ≤ rd (radius / res) := by
    have : radius / res / 2 ^ 53 ≤ radius / res := div_le_self q0 (by norm_num)
    linarith [e.1]
  have h1 : ((⌈rd (radius / res)⌉.toNat : Nat) : K) = ((⌈rd (radius / res)⌉ : Int) : K) := by
    exact_mod_cast Int.toNat_of_nonneg (Int.ceil_nonneg hx)
  have h2 := Int.ceil_lt_add_one (rd (radius / res))
  rw [h1]
  have h3 : ((⌈rd (radius / res)⌉ : Int) : K) < radius / res + radius / res / 2 ^ 53 + 1 := by linarith [e.2]
  calc _ < (radius / res + radius / res / 2 ^ 53 + 1) * res := mul_lt_mul_of_pos_right h3 hr
    _ = _ := by field_simp

/-- C91. What a call in floating point does: as in C38, each cell of the destination equals the source cell, or gets the cost of a lethal
cell. That cell is less than the radius plus the length of one cell away, up to a rounding error. -/
theorem C91_reach (hrd : DoublePrecision rd) (hc : m.Coherent) (hres : 0 < m.resolution) {ls : String} (hls : m.exists ls = true)
    (ld : String) (h0 : 0 ≤ radius) (hn : ⌈rd (radius / m.resolution)⌉.toNat < 2 ^ 32 - 1) (hpop : PopOk pop)
    (hh : HypOk hyp ⌈rd (radius / m.resolution)⌉.toNat) (ho : UsedRd rd rf hyp computer m.resolution o) (log : List Idx) :
    ∃ st', inflateRd rd rf pop hyp ls ld radius computer ⟨o, m, log⟩ = (.ok (), st') ∧
      SameGeometry m st'.map ∧ SameMeta m st'.map ∧
      st'.map.layers = (if m.exists ld then m.layers else m.layers ++ [ld]) ∧
      (∀ l, l ≠ ld → st'.map.get l = m.get l) ∧
      ∀ i v, i.In m.size → m.at ls i = .ok v →
        st'.map.at ld i = .ok v ∨
        ∃ q, m.Lethal ls q ∧ (sqDist i q : K) * m.resolution ^ 2 < (radius * (1 + 1 / 2 ^ 53) + m.resolution) ^ 2 ∧
          st'.map.at ld i = .ok (combined v (inflationCostRd rf hyp computer m.resolution i q)) := by
  rw [C91_same rd rf pop hyp ls ld radius computer hres]
  obtain ⟨st', h1, h2, h3, h4, h5, h6⟩ := C38_only_near_obstacles (pop := pop) (radius := rd (radius / m.resolution) * m.resolution)
    hc hres hls ld (by rw [radiusInCells_rd hres]; exact hn) hpop (by rw [radiusInCells_rd hres]; exact hh) (ho.used hres) log
  refine ⟨st', h1, h2, h3, h4, h5, fun i v hi hv => ?_⟩
  rcases h6 i v hi hv with h | ⟨q, hq, hd, h⟩
  · exact .inl h
  · refine .inr ⟨q, hq, ?_, ?_⟩
    · rw [radiusInCells_rd hres] at hd
      have hlt := cells_lt hrd hres h0
      generalize ⌈rd (radius / m.resolution)⌉.toNat = n at hd hlt
      have hd' : (sqDist i q : K) ≤ (n : K) * n := by exact_mod_cast hd
      calc (sqDist i q : K) * m.resolution ^ 2 ≤ (n : K) * n * m.resolution ^ 2 := mul_le_mul_of_nonneg_right hd' (by positivity)
        _ = ((n : K) * m.resolution) ^ 2 := by ring
        _ < _ := by
          have : (0 : K) ≤ n * m.resolution := by positivity
          exact pow_lt_pow_left₀ hlt this (by norm_num)
    · rw [h]
      unfold inflationCost inflationCostRd
      beta_reduce
      rw [mul_div_cancel_left₀ _ hres.ne']

/-- C91. Every cell whose Manhattan distance from a lethal cell is at most the radius, less a rounding error, is inflated, from a lethal
cell that is no farther than that Manhattan distance. -/
theorem C91_covers (hrd : DoublePrecision rd) (hc : m.Coherent) (hres : 0 < m.resolution) {ls : String} (hls : m.exists ls = true)
    (ld : String) (h0 : 0 ≤ radius) (hn : ⌈rd (radius / m.resolution)⌉.toNat < 2 ^ 32 - 1) (hpop : PopOk pop)
    (hh : HypOk hyp ⌈rd (radius / m.resolution)⌉.toNat) (ho : UsedRd rd rf hyp computer m.resolution o) (log : List Idx) :
    ∃ st', inflateRd rd rf pop hyp ls ld radius computer ⟨o, m, log⟩ = (.ok (), st') ∧
      ∀ i v L, i.In m.size → m.at ls i = .ok v → m.Lethal ls L →
        (manhattan i L : K) * m.resolution ≤ radius * (1 - 1 / 2 ^ 53) →
        ∃ q, m.Lethal ls q ∧ sqDist i q ≤ manhattan i L * manhattan i L ∧
          st'.map.at ld i = .ok (combined v (inflationCostRd rf hyp computer m.resolution i q)) := by
  rw [C91_same rd rf pop hyp ls ld radius computer hres]
  obtain ⟨st', h1, h2⟩ := C41_manhattan_range (pop := pop) (radius := rd (radius / m.resolution) * m.resolution)
    hc hres hls ld (by rw [radiusInCells_rd hres]; exact hn) hpop (by rw [radiusInCells_rd hres]; exact hh) (ho.used hres) log
  refine ⟨st', h1, fun i v L hi hv hL hm => ?_⟩
  have hman : manhattan i L ≤ radiusInCells (rd (radius / m.resolution) * m.resolution) m.resolution := by
    rw [radiusInCells_rd hres]
    have e := hrd (radius / m.resolution)
    rw [abs_of_nonneg (div_nonneg h0 hres.le), abs_le] at e
    have h3 : (manhattan i L : K) ≤ rd (radius / m.resolution) := by
      have : (manhattan i L : K) ≤ radius * (1 - 1 / 2 ^ 53) / m.resolution := by
        rw [le_div_iff₀ hres]; exact hm
      have e2 : radius * (1 - 1 / 2 ^ 53) / m.resolution = radius / m.resolution - radius / m.resolution / 2 ^ 53 := by
        field_simp
      rw [e2] at this
      linarith [e.1]
    have h4 : ((manhattan i L : Nat) : Int) ≤ ⌈rd (radius / m.resolution)⌉ := by
      have := h3.trans (Int.le_ceil (rd (radius / m.resolution)))
      exact_mod_cast this
    omega
  obtain ⟨-, q, hq, hd, -, h⟩ := h2 i v L hi hv hL hman
  refine ⟨q, hq, hd, ?_⟩
  rw [h]
  unfold inflationCost inflationCostRd
  beta_reduce
  rw [mul_div_cancel_left₀ _ hres.ne']

/-- C91. The distance the computer gets is the true one, up to three roundings. -/
theorem C91_distance (hrf : FloatPrecision rf) {res d : K} (hr : 0 ≤ res) (hd : 0 ≤ d) :
    |rf (rf res * d) - res * d| ≤ res * d / 2 ^ 22 := by
  have h1 := hrf res
  rw [abs_of_nonneg hr] at h1
  have h2 : |rf res * d - res * d| ≤ res * d / 2 ^ 24 := by
    rw [← sub_mul, abs_mul, abs_of_nonneg hd]
    calc |rf res - res| * d ≤ res / 2 ^ 24 * d := mul_le_mul_of_nonneg_right h1 hd
      _ = _ := by ring
  have h3 := hrf (rf res * d)
  have hp : 0 ≤ res * d := mul_nonneg hr hd
  obtain ⟨a1, a2⟩ := abs_le.mp h2
  have h4 : |rf res * d| ≤ 2 * (res * d) := by
    have : res * d / 2 ^ 24 ≤ res * d := div_le_self hp (by norm_num)
    rw [abs_le]; constructor <;> linarith
  have h5 : |rf res * d| / 2 ^ 24 ≤ 2 * (res * d) / 2 ^ 24 := by gcongr
  have h6 := abs_sub_le (rf (rf res * d)) (rf res * d) (res * d)
  have h7 : res * d / 2 ^ 22 = 4 * (res * d / 2 ^ 24) := by ring
  have h8 : 2 * (res * d) / 2 ^ 24 = 2 * (res * d / 2 ^ 24) := by ring
  have h9 : 0 ≤ res * d / 2 ^ 24 := by positivity
  linarith

/-- C91, partial. With the ROS computer, every cell of the map that is within the inscribed radius, less a rounding error, gets an inscribed
or lethal cost, and none that is farther away than that, plus a rounding error. Missing: cells at that distance (`C91_false_inscribed`). -/
theorem C91_inscribed_partial (hrf : FloatPrecision rf) (hf : RoundOk rf) (hd : RoundOk rd) (hd' : rd 252 = 252) {exp : K → K}
    (he : ExpOk exp) (r : K) {w : K} (hw : 0 ≤ w) {res d : K} (hr : 0 < res) (h0 : 0 ≤ d) :
    (res * d * (1 + 1 / 2 ^ 22) ≤ r → ∃ c, rosCost rf rd exp r w (rf (rf res * d)) = .ok c ∧ 253 ≤ c.toNat) ∧
    (0 < d → r < res * d * (1 - 1 / 2 ^ 22) → ∃ c, rosCost rf rd exp r w (rf (rf res * d)) = .ok c ∧ c.toNat ≤ 252) := by
  obtain ⟨c1, c2, c3, -⟩ := C45_ros_cost_curve hf hd hd' he r hw
  obtain ⟨a1, a2⟩ := abs_le.mp (C91_distance hrf hr.le h0)
  have hp : 0 ≤ res * d := mul_nonneg hr.le h0
  have hq : res * d / 2 ^ 22 ≤ res * d := div_le_self hp (by norm_num)
  constructor
  · intro h
    have hle : rf (rf res * d) ≤ r := by linarith
    rcases (show 0 ≤ rf (rf res * d) by linarith).eq_or_lt with e | e
    · rw [← e]; exact ⟨_, c1, by decide⟩
    · exact ⟨_, c2 _ e hle, by decide⟩
  · intro hd0 h
    have hp' : 0 < res * d := mul_pos hr hd0
    have hq' : res * d / 2 ^ 22 < res * d := div_lt_self hp' (by norm_num)
    exact c3 _ (by linarith) (by linarith)

end

/-! ### What is false -/

/-- C91 fails: a radius of 0.3 m on a map with cells of 0.1 m covers four cells, not three. -/
theorem C91_false_radius : radiusInCells (3 / 10 : ℚ) (1 / 10) = 3 ∧
    cellsOfRd toDouble (toFloat (3 / 10)) (toDouble (1 / 10)) = some 4 := by
  constructor <;> decide +kernel

/-- C91 fails: on a map with cells of 0.05 m a cell nine cells away from an obstacle is 0.45 m away, but with an inscribed radius of 0.45 m its
cost is less than `INSCRIBED_OBSTACLE`, whatever the weight. -/
theorem C91_false_inscribed {exp : ℚ → ℚ} (he : ExpOk exp) {w : ℚ} (hw : 0 ≤ w) : (9 : ℚ) * (1 / 20) = 45 / 100 ∧
    ∃ c, rosCost toFloat toDouble exp (toFloat (45 / 100)) w (toFloat (toFloat (toDouble (1 / 20)) * 9)) = .ok c ∧ c.toNat ≤ 252 :=
  ⟨by norm_num, (C45_ros_cost_curve (binRound_ok (by norm_num)) (binRound_ok (by norm_num)) (by decide +kernel) he _ hw).2.2.1 _ (by decide +kernel) (by decide +kernel)⟩

/-! ### Examples -/

namespace Demo

/-- A row of nine cells of 0.1 m with an obstacle in the middle. -/
def tenthRow : CostMap ℚ :=
  (CostMap.add "s" (Mat.ofFn 1 9 fun _ j => if j = 4 then 254 else 0)
    (CostMap.setGeometry (⟨toDouble (1 / 10), 9 * toDouble (1 / 10)⟩ : Vec ℚ) (toDouble (1 / 10)) ⟨0, 0⟩ (CostMap.new [])).2).2

theorem tenthRow_coherent : tenthRow.Coherent := by
  have h0 : (CostMap.new [] : CostMap ℚ).Coherent := CostMap.new_coherent (by simp)
  exact CostMap.add_coherent _ _ _ (CostMap.setGeometry_coherent _ _ _ _ h0)

/-- A square root in fixed point, for `std::hypot`. -/
def hypot (i j : Nat) : ℚ := (Nat.sqrt ((i * i + j * j) * 4 ^ 60) : ℚ) / 2 ^ 60

theorem hypot_ok : HypotDouble hypot := by
  intro i j
  unfold hypot
  generalize i * i + j * j = s
  refine ⟨by positivity, ?_⟩
  have h1 := Nat.sqrt_le (s * 4 ^ 60)
  have h2 := Nat.lt_succ_sqrt (s * 4 ^ 60)
  generalize Nat.sqrt (s * 4 ^ 60) = q at h1 h2
  have h1' : (q : ℚ) * q ≤ s * 4 ^ 60 := by exact_mod_cast h1
  have h2' : (s : ℚ) * 4 ^ 60 < (q + 1) * (q + 1) := by exact_mod_cast h2
  have e : (q : ℚ) / 2 ^ 60 * (q / 2 ^ 60) = q * q / 4 ^ 60 := by
    rw [div_mul_div_comm]; norm_num
  rw [e]
  have hq0 : (0 : ℚ) ≤ q := by positivity
  have hs0 : (0 : ℚ) ≤ s := by positivity
  rcases Nat.eq_zero_or_pos s with h0 | h0
  · subst h0
    have : (q : ℚ) = 0 := by norm_num at h1'; nlinarith
    rw [this]; simp
  · have hs1 : (1 : ℚ) ≤ s := by exact_mod_cast h0
    have hqle : (q : ℚ) ≤ s * 2 ^ 60 := by
      by_contra hc
      push Not at hc
      have : (s : ℚ) * 2 ^ 60 * (s * 2 ^ 60) < q * q := mul_self_lt_mul_self (by positivity) hc
      norm_num at this h1'
      nlinarith
    rw [abs_le, div_sub' (by positivity), le_div_iff₀ (by positivity), div_le_iff₀ (by positivity)]
    have e2 : (s : ℚ) / 2 ^ 50 * 4 ^ 60 = s * 2 ^ 70 := by ring
    norm_num at h1' h2' hqle ⊢
    constructor <;> nlinarith [hs1]

/-- Something that has the assumed properties of `std::exp`. -/
def stepExp (x : ℚ) : ℚ := if 0 ≤ x then 1 else 0

theorem stepExp_ok : ExpOk stepExp where
  mono := by intro x y h; unfold stepExp; split_ifs <;> linarith
  nonneg := by intro x; unfold stepExp; split_ifs <;> norm_num
  zero := by decide +kernel

end Demo

open Demo in
/-- The cell three cells away gets the computed cost; the distances are rounded square roots. -/
example : ∃ st', inflateRd toDouble toFloat pop (fun i j => toFloat (hypot i j)) "s" "t" (toFloat (3 / 10)) (fun _ => 200)
      ⟨Inflater.new, tenthRow, []⟩ = (.ok (), st') ∧ st'.map.at "t" ⟨0, 1⟩ = .ok 200 := by
  have hn : ⌈toDouble (toFloat (3 / 10) / tenthRow.resolution)⌉.toNat = 4 := by decide +kernel
  obtain ⟨st', h1, h2⟩ := C91_covers (rf := toFloat) (radius := toFloat (3 / 10)) (computer := fun _ => 200) toDouble_precision
    tenthRow_coherent (by decide +kernel) (ls := "s") (by decide +kernel) "t" (by decide +kernel) (by rw [hn]; norm_num) pop_ok
    (by rw [hn]; exact (C91_hypot hypot_ok _).2 (by norm_num)) .new []
  obtain ⟨q, -, -, h3⟩ := h2 ⟨0, 1⟩ 0 ⟨0, 4⟩ (by decide +kernel) (by decide +kernel) ⟨by decide +kernel, by decide +kernel⟩
    (by decide +kernel)
  exact ⟨st', h1, h3⟩

open Demo in
/-- C91 fails on a map: the first cell is four cells, 0.4 m, away from the only obstacle, and gets the computed cost, although the radius is
0.3 m. -/
theorem C91_false_reach :
    (∀ q ∈ (List.range 9).map (fun j => (⟨0, j⟩ : Idx)), tenthRow.at "s" q = .ok 254 → q = ⟨0, 4⟩) ∧
    (inflateRd toDouble toFloat pop hyp "s" "t" (toFloat (3 / 10)) (fun _ => 200) ⟨Inflater.new, tenthRow, []⟩).2.map.at "t" ⟨0, 0⟩ =
      .ok 200 ∧
    (inflate pop hyp "s" "t" (3 / 10 : ℚ) (fun _ => 200) ⟨Inflater.new, { tenthRow with resolution := 1 / 10 }, []⟩).2.map.at "t" ⟨0, 0⟩ =
      .ok 0 := by
  refine ⟨by decide +kernel, by decide +kernel, by decide +kernel⟩

open Demo in
example := C91_reach (rf := toFloat) (radius := toFloat (3 / 10)) (computer := fun _ => 200) toDouble_precision
    tenthRow_coherent (by decide +kernel) (ls := "s") (by decide +kernel) "t" (by decide +kernel)
    (by rw [show ⌈toDouble (toFloat (3 / 10) / tenthRow.resolution)⌉.toNat = 4 by decide +kernel]; norm_num) pop_ok
    (by rw [show ⌈toDouble (toFloat (3 / 10) / tenthRow.resolution)⌉.toNat = 4 by decide +kernel]
        exact (C91_hypot hypot_ok _).2 (by norm_num)) .new []

example : ∃ c, rosCost toFloat toDouble Demo.stepExp (toFloat (1 / 2)) 1 (toFloat (toFloat (toDouble (1 / 20)) * 9)) = .ok c ∧
    253 ≤ c.toNat :=
  (C91_inscribed_partial toFloat_precision (binRound_ok (by norm_num)) (binRound_ok (p := 53) (by norm_num)) (by decide +kernel) Demo.stepExp_ok _
    (by norm_num) (by decide +kernel) (by norm_num)).1 (by decide +kernel)

example := C91_distance toFloat_precision (res := 1 / 20) (d := 9) (by norm_num) (by norm_num)

example := C91_false_inscribed Demo.stepExp_ok (w := 10) (by norm_num)

example : HypOk (fun i j => toFloat (Demo.hypot i j)) 4095 ∧ ¬ HypOk (fun i j => toFloat (Demo.hypot i j)) 4096 := by
  simp [C91_hypot Demo.hypot_ok]

end CostMapModel

import Verif.Model.Float
import Verif.Spec.Float
import Mathlib.Data.Nat.Log
import Mathlib.Tactic.Linarith
import Mathlib.Tactic.Ring
import Mathlib.Tactic.FieldSimp
import Mathlib.Tactic.Positivity

/-!
# The rounding of the model is rounding to nearest
-/

namespace CostMapModel

theorem roundEven_near (a b : Nat) (hb : 0 < b) : |(a : ℚ) / b - roundEven a b| ≤ 1 / 2 := by
  have hb' : (0 : ℚ) < b := by exact_mod_cast hb
  have hd : (a : ℚ) = b * (a / b : Nat) + (a % b : Nat) := by
    exact_mod_cast (Nat.div_add_mod a b).symm
  have hr : a % b < b := Nat.mod_lt _ hb
  have key : ∀ q : Nat, (2 * (a : ℚ) - 2 * b * q ≤ b) → (2 * (b : ℚ) * q - 2 * a ≤ b) → |(a : ℚ) / b - q| ≤ 1 / 2 := by
    intro q h1 h2
    rw [abs_le]
    constructor
    · have : (q : ℚ) - 1 / 2 ≤ a / b := by rw [le_div_iff₀ hb']; nlinarith
      linarith
    · have : (a : ℚ) / b ≤ q + 1 / 2 := by rw [div_le_iff₀ hb']; nlinarith
      linarith
  unfold roundEven
  simp only
  have c1 : ∀ x y : Nat, x ≤ y → (x : ℚ) ≤ y := fun x y h => by exact_mod_cast h
  split
  · rename_i h
    have := c1 _ _ h.le
    push_cast at this
    apply key <;> (rw [hd]; nlinarith [c1 0 (a % b) (Nat.zero_le _)])
  · rename_i h
    have h1 : b ≤ 2 * (a % b) := by omega
    have h1 := c1 _ _ h1
    have h2 := c1 _ _ hr.le
    push_cast at h1
    split
    · apply key <;> (push_cast; rw [hd]; nlinarith)
    · rename_i h3
      have h3 := c1 _ _ (Nat.le_of_not_lt h3)
      push_cast at h3
      split
      · apply key <;> (rw [hd]; nlinarith)
      · apply key <;> (push_cast; rw [hd]; nlinarith)

/-- A nearest integer is as near as any other. -/
theorem near_int {x : ℚ} {q t : Int} (h : |x - q| ≤ 1 / 2) : |x - q| ≤ |x - t| := by
  by_cases e : t = q
  · rw [e]
  · have : (1 : ℚ) ≤ |(q : ℚ) - t| := by
      have : 1 ≤ |q - t| := Int.one_le_abs (sub_ne_zero.2 (Ne.symm e))
      exact_mod_cast this
    have := abs_sub_abs_le_abs_sub ((q : ℚ) - t) (q - x)
    have e2 : (q : ℚ) - t - (q - x) = x - t := by ring
    rw [e2, abs_sub_comm (q : ℚ) x] at this
    linarith

theorem two_zpow_pos (e : Int) : (0 : ℚ) < 2 ^ e := zpow_pos (by norm_num) e

theorem binExponent_spec {n d : Nat} (hn : 0 < n) (hd : 0 < d) :
    (2 : ℚ) ^ binExponent n d ≤ (n : ℚ) / d ∧ (n : ℚ) / d < 2 ^ (binExponent n d + 1) := by
  have hd' : (0 : ℚ) < d := by exact_mod_cast hd
  have n1 : 2 ^ Nat.log2 n ≤ n := Nat.log2_self_le hn.ne'
  have n2 : n < 2 ^ (Nat.log2 n + 1) := Nat.lt_log2_self
  have d1 : 2 ^ Nat.log2 d ≤ d := Nat.log2_self_le hd.ne'
  have d2 : d < 2 ^ (Nat.log2 d + 1) := Nat.lt_log2_self
  have n1' : (2 : ℚ) ^ (Nat.log2 n : Int) ≤ n := by rw [zpow_natCast]; exact_mod_cast n1
  have n2' : (n : ℚ) < 2 ^ ((Nat.log2 n : Int) + 1) := by
    rw [show ((Nat.log2 n : Int) + 1) = ((Nat.log2 n + 1 : Nat) : Int) by push_cast; ring, zpow_natCast]
    exact_mod_cast n2
  have d1' : (2 : ℚ) ^ (Nat.log2 d : Int) ≤ d := by rw [zpow_natCast]; exact_mod_cast d1
  have d2' : (d : ℚ) < 2 ^ ((Nat.log2 d : Int) + 1) := by
    rw [show ((Nat.log2 d : Int) + 1) = ((Nat.log2 d + 1 : Nat) : Int) by push_cast; ring, zpow_natCast]
    exact_mod_cast d2
  have two : (2 : ℚ) ≠ 0 := by norm_num
  -- the test compares with the power
  have test : (if 0 ≤ (Nat.log2 n : Int) - Nat.log2 d then d * 2 ^ ((Nat.log2 n : Int) - Nat.log2 d).toNat ≤ n
      else d ≤ n * 2 ^ (-((Nat.log2 n : Int) - Nat.log2 d)).toNat) ↔
      (2 : ℚ) ^ ((Nat.log2 n : Int) - Nat.log2 d) ≤ (n : ℚ) / d := by
    rw [le_div_iff₀ hd']
    split
    · rename_i h
      obtain ⟨k, hk⟩ := Int.eq_ofNat_of_zero_le h
      rw [hk, zpow_natCast, Int.toNat_natCast]
      constructor
      · intro h; rw [mul_comm]; exact_mod_cast h
      · intro h; rw [mul_comm] at h; exact_mod_cast h
    · rename_i h
      obtain ⟨k, hk⟩ := Int.eq_ofNat_of_zero_le (show 0 ≤ -((Nat.log2 n : Int) - Nat.log2 d) by omega)
      rw [hk, Int.toNat_natCast, show ((Nat.log2 n : Int) - Nat.log2 d) = -(k : Int) by omega, zpow_neg, zpow_natCast,
        inv_mul_le_iff₀ (by positivity), mul_comm]
      constructor
      · intro h; exact_mod_cast h
      · intro h; exact_mod_cast h
  have up : (n : ℚ) / d < 2 ^ ((Nat.log2 n : Int) - Nat.log2 d + 1) := by
    rw [div_lt_iff₀ hd']
    refine lt_of_lt_of_le n2' ?_
    calc (2 : ℚ) ^ ((Nat.log2 n : Int) + 1) = 2 ^ ((Nat.log2 n : Int) - Nat.log2 d + 1) * 2 ^ (Nat.log2 d : Int) := by
          rw [← zpow_add₀ two]; congr 1; ring
      _ ≤ _ := mul_le_mul_of_nonneg_left d1' (two_zpow_pos _).le
  have lo : (2 : ℚ) ^ ((Nat.log2 n : Int) - Nat.log2 d - 1) ≤ (n : ℚ) / d := by
    rw [le_div_iff₀ hd']
    refine le_trans ?_ n1'
    calc (2 : ℚ) ^ ((Nat.log2 n : Int) - Nat.log2 d - 1) * d
        ≤ 2 ^ ((Nat.log2 n : Int) - Nat.log2 d - 1) * 2 ^ ((Nat.log2 d : Int) + 1) :=
          mul_le_mul_of_nonneg_left d2'.le (two_zpow_pos _).le
      _ = _ := by rw [← zpow_add₀ two]; congr 1; ring
  by_cases h : (2 : ℚ) ^ ((Nat.log2 n : Int) - Nat.log2 d) ≤ (n : ℚ) / d
  · have e : binExponent n d = (Nat.log2 n : Int) - Nat.log2 d := if_pos (test.2 h)
    rw [e]
    exact ⟨h, up⟩
  · have e : binExponent n d = (Nat.log2 n : Int) - Nat.log2 d - 1 := if_neg fun h' => h (test.1 h')
    rw [e, sub_add_cancel]
    exact ⟨lo, lt_of_not_ge h⟩

theorem Representable.neg {p : Nat} {x : ℚ} (h : Representable p x) : Representable p (-x) := by
  obtain ⟨m, e, h1, h2⟩ := h
  exact ⟨-m, e, by rwa [abs_neg], by rw [h2]; push_cast; ring⟩

theorem Nearest.neg {p : Nat} {x y : ℚ} (h : Nearest p x y) : Nearest p (-x) (-y) := by
  refine ⟨h.1.neg, fun z hz => ?_⟩
  have := h.2 (-z) hz.neg
  rw [show -x - -y = -(x - y) by ring, show -x - z = -(x - -z) by ring, abs_neg, abs_neg]
  exact this

/-- Rounding a positive number at the right power of two gives a nearest representable number. -/
theorem nearest_of_scaled {p : Nat} (hp : 0 < p) {x : ℚ} {k q : Int} (h1 : (2 : ℚ) ^ (p - 1 : Int) ≤ x * 2 ^ k)
    (h2 : x * 2 ^ k < 2 ^ (p : Int)) (hq : |x * 2 ^ k - q| ≤ 1 / 2) : Nearest p x (q * 2 ^ (-k)) := by
  have two : (2 : ℚ) ≠ 0 := by norm_num
  have u : (0 : ℚ) < 2 ^ (-k) := two_zpow_pos _
  have hx : x = x * 2 ^ k * 2 ^ (-k) := by rw [mul_assoc, ← zpow_add₀ two]; simp
  have scale : ∀ t : ℚ, |x - t * 2 ^ (-k)| = |x * 2 ^ k - t| * 2 ^ (-k) := by
    intro t
    have : x - t * 2 ^ (-k) = (x * 2 ^ k - t) * 2 ^ (-k) := by rw [sub_mul, ← hx]
    rw [this, abs_mul, abs_of_pos u]
  have hp1 : (2 : ℚ) ^ (p - 1 : Int) = ((2 ^ (p - 1) : Nat) : ℚ) := by
    rw [show ((p : Int) - 1) = ((p - 1 : Nat) : Int) by omega, zpow_natCast]; push_cast; rfl
  have hp2 : (2 : ℚ) ^ (p : Int) = ((2 ^ p : Nat) : ℚ) := by rw [zpow_natCast]; push_cast; rfl
  have best : ∀ t : Int, |x - q * 2 ^ (-k)| ≤ |x - t * 2 ^ (-k)| := by
    intro t
    rw [scale, scale]
    exact mul_le_mul_of_nonneg_right (near_int hq) u.le
  constructor
  · rw [abs_le] at hq
    have q0 : -(1 : ℚ) < q := by
      have : (0 : ℚ) < 2 ^ (p - 1 : Int) := two_zpow_pos _
      linarith
    have q0 : 0 ≤ q := by
      have : (-1 : Int) < q := by exact_mod_cast q0
      omega
    have q1 : (q : ℚ) < 2 ^ p + 1 := by rw [hp2] at h2; push_cast at h2; linarith
    have q1 : q ≤ 2 ^ p := by
      have : q < 2 ^ p + 1 := by exact_mod_cast q1
      omega
    rcases lt_or_eq_of_le q1 with h | h
    · exact ⟨q, -k, by rwa [abs_of_nonneg q0], rfl⟩
    · refine ⟨1, (p : Int) + -k, ?_, ?_⟩
      · rw [abs_one]; exact_mod_cast Nat.one_lt_two_pow hp.ne'
      · rw [zpow_add₀ two, h, zpow_natCast]; push_cast; ring
  · rintro z ⟨m, j, hm, rfl⟩
    by_cases hj : -k ≤ j
    · obtain ⟨a, ha⟩ := Int.eq_ofNat_of_zero_le (sub_nonneg.2 hj)
      have : (m : ℚ) * 2 ^ j = ((m * 2 ^ a : Int) : ℚ) * 2 ^ (-k) := by
        rw [show j = (a : Int) + -k by omega, zpow_add₀ two, zpow_natCast]; push_cast; ring
      rw [this]
      exact best _
    · -- `z` is below the binade of `x`
      have hz : (m : ℚ) * 2 ^ j ≤ ((2 ^ (p - 1) : Nat) : ℚ) * 2 ^ (-k) := by
        have m1 : (m : ℚ) ≤ 2 ^ p := by
          have : m ≤ 2 ^ p := (le_abs_self m).trans hm.le
          exact_mod_cast this
        calc (m : ℚ) * 2 ^ j ≤ 2 ^ p * 2 ^ j := mul_le_mul_of_nonneg_right m1 (two_zpow_pos _).le
          _ = 2 ^ ((p : Int) + j) := by rw [zpow_add₀ two, zpow_natCast]
          _ ≤ 2 ^ ((p - 1 : Int) + -k) := zpow_le_zpow_right₀ (by norm_num) (by omega)
          _ = _ := by rw [zpow_add₀ two, hp1]
      have hb := best ((2 ^ (p - 1) : Nat) : Int)
      have e : ((((2 ^ (p - 1) : Nat) : Int) : ℚ)) = ((2 ^ (p - 1) : Nat) : ℚ) := by push_cast; rfl
      rw [e] at hb
      have hx' : ((2 ^ (p - 1) : Nat) : ℚ) * 2 ^ (-k) ≤ x := by
        rw [← hp1]
        calc (2 : ℚ) ^ (p - 1 : Int) * 2 ^ (-k) ≤ x * 2 ^ k * 2 ^ (-k) := mul_le_mul_of_nonneg_right h1 u.le
          _ = x := hx.symm
      refine hb.trans ?_
      rw [abs_of_nonneg (sub_nonneg.2 hx'), abs_of_nonneg (by linarith)]
      linarith

theorem representable_zero (p : Nat) : Representable p 0 := ⟨0, 0, by simp, by simp⟩

/-- The rounding of the model is rounding to nearest. -/
theorem binRound_nearest {p : Nat} (hp : 0 < p) (x : ℚ) : Nearest p x (binRound p x) := by
  have two : (2 : ℚ) ≠ 0 := by norm_num
  by_cases h0 : x = 0
  · subst h0
    refine ⟨by simpa [binRound] using representable_zero p, fun z _ => by simp [binRound]⟩
  have hn : 0 < x.num.natAbs := Int.natAbs_pos.2 (Rat.num_ne_zero.2 h0)
  have hd : 0 < x.den := x.den_pos
  have hd' : (0 : ℚ) < x.den := by exact_mod_cast hd
  have habs : |x| = (x.num.natAbs : ℚ) / x.den := by
    rw [Nat.cast_natAbs]
    conv_lhs => rw [← Rat.num_div_den x]
    rw [abs_div, abs_of_pos hd']
    push_cast
    rfl
  obtain ⟨e1, e2⟩ := binExponent_spec hn hd
  have main : Nearest p |x| (if 0 ≤ (p : Int) - 1 - binExponent x.num.natAbs x.den then
      (roundEven (x.num.natAbs * 2 ^ ((p : Int) - 1 - binExponent x.num.natAbs x.den).toNat) x.den : ℚ) /
        ((2 ^ ((p : Int) - 1 - binExponent x.num.natAbs x.den).toNat : Nat) : ℚ)
      else (roundEven x.num.natAbs (x.den * 2 ^ (-((p : Int) - 1 - binExponent x.num.natAbs x.den)).toNat) : ℚ) *
        ((2 ^ (-((p : Int) - 1 - binExponent x.num.natAbs x.den)).toNat : Nat) : ℚ)) := by
    have g1 : (2 : ℚ) ^ (p - 1 : Int) ≤ |x| * 2 ^ ((p : Int) - 1 - binExponent x.num.natAbs x.den) := by
      rw [habs]
      calc (2 : ℚ) ^ (p - 1 : Int)
          = 2 ^ binExponent x.num.natAbs x.den * 2 ^ ((p : Int) - 1 - binExponent x.num.natAbs x.den) := by
            rw [← zpow_add₀ two]; congr 1; ring
        _ ≤ _ := mul_le_mul_of_nonneg_right e1 (two_zpow_pos _).le
    have g2 : |x| * 2 ^ ((p : Int) - 1 - binExponent x.num.natAbs x.den) < (2 : ℚ) ^ (p : Int) := by
      rw [habs]
      calc _ < (2 : ℚ) ^ (binExponent x.num.natAbs x.den + 1) * 2 ^ ((p : Int) - 1 - binExponent x.num.natAbs x.den) :=
            mul_lt_mul_of_pos_right e2 (two_zpow_pos _)
        _ = _ := by rw [← zpow_add₀ two]; congr 1; ring
    split
    · rename_i hk
      obtain ⟨k, hk⟩ := Int.eq_ofNat_of_zero_le hk
      rw [hk] at g1 g2 ⊢
      rw [Int.toNat_natCast]
      have := nearest_of_scaled hp (q := (roundEven (x.num.natAbs * 2 ^ k) x.den : Int)) g1 g2 (by
        have := roundEven_near (x.num.natAbs * 2 ^ k) x.den hd
        rw [habs, zpow_natCast]
        push_cast at this ⊢
        rwa [div_mul_eq_mul_div])
      rw [zpow_neg, zpow_natCast] at this
      push_cast at this ⊢
      rwa [div_eq_mul_inv]
    · rename_i hk
      obtain ⟨k, hk⟩ := Int.eq_ofNat_of_zero_le (show 0 ≤ -((p : Int) - 1 - binExponent x.num.natAbs x.den) by omega)
      have hk' : (p : Int) - 1 - binExponent x.num.natAbs x.den = -(k : Int) := by omega
      rw [hk'] at g1 g2 ⊢
      rw [neg_neg, Int.toNat_natCast]
      have := nearest_of_scaled hp (q := (roundEven x.num.natAbs (x.den * 2 ^ k) : Int)) g1 g2 (by
        have := roundEven_near x.num.natAbs (x.den * 2 ^ k) (by positivity)
        rw [habs, zpow_neg, zpow_natCast]
        push_cast at this ⊢
        rwa [← div_eq_mul_inv, div_div])
      rw [neg_neg, zpow_natCast] at this
      push_cast at this ⊢
      exact this
  unfold binRound
  rw [if_neg h0]
  simp only
  by_cases hx : x < 0
  · rw [if_pos hx]
    have := main.neg
    rwa [abs_of_neg hx, neg_neg] at this
  · rw [if_neg hx]
    rwa [abs_of_nonneg (not_lt.1 hx)] at main

/-- Representable numbers are not changed. -/
theorem binRound_exact {p : Nat} (hp : 0 < p) {x : ℚ} (h : Representable p x) : binRound p x = x := by
  have := (binRound_nearest hp x).2 x h
  rw [sub_self, abs_zero] at this
  have := abs_nonpos_iff.1 this
  linarith

end CostMapModel

import Verif.Spec.MachineLine
import Verif.Lemmas.Machine

/-! # Helper lemmas for lines between positions on the machine -/

set_option linter.unusedSectionVars false

namespace CostMapModel
open CostMap
variable {K : Type} [Field K] [LinearOrder K] [IsStrictOrderedRing K] [FloorRing K]

namespace LineIter

/-- One coordinate of the points the search visits. -/
def walk (rd : K → K) (inc : K) (a : K) : Nat → K
  | 0 => a
  | k + 1 => rd (walk rd inc a k + inc)

theorem inc_err {rd : K → K} (hrd : DoublePrecision rd) {h u : K} (hh : 0 < h) (hu : |u| ≤ 65 / 64) :
    |rd (h * rd u) - h * u| ≤ 5 * h / 2 ^ 53 := by
  have e1 := hrd u
  have e2 := hrd (h * rd u)
  have a1 : |rd u| ≤ 2 := by
    have : |rd u| ≤ |rd u - u| + |u| := by simpa using abs_add_le (rd u - u) u
    have : |u| / 2 ^ 53 ≤ |u| := div_le_self (abs_nonneg _) (by norm_num)
    have : (|u| : K) / 2 ^ 53 ≤ 1 / 2 := by rw [div_le_iff₀ (by positivity)]; linarith
    linarith
  rw [abs_mul, abs_of_pos hh] at e2
  have e3 : |h * rd u - h * u| ≤ h * (2 / 2 ^ 53) := by
    rw [← mul_sub, abs_mul, abs_of_pos hh]
    apply mul_le_mul_of_nonneg_left _ hh.le
    refine e1.trans ?_
    gcongr
    linarith
  have e4 : h * |rd u| / 2 ^ 53 ≤ h * 2 / 2 ^ 53 := by gcongr
  have : |rd (h * rd u) - h * u| ≤ |rd (h * rd u) - h * rd u| + |h * rd u - h * u| := by
    simpa using abs_add_le (rd (h * rd u) - h * rd u) (h * rd u - h * u)
  have e5 : h * 2 / 2 ^ 53 + h * (2 / 2 ^ 53) ≤ 5 * h / 2 ^ 53 := by
    rw [show h * 2 / 2 ^ 53 + h * (2 / 2 ^ 53) = 4 * h / 2 ^ 53 by ring]
    gcongr
    norm_num
  linarith

/-- The points the search visits are near those of the exact line. -/
theorem walk_err {rd : K → K} (hrd : DoublePrecision rd) {h N d a S B : K} (hh : 0 < h) (hN : 0 < N) (hd : |d| ≤ 65 / 64 * N)
    (ha : |a| ≤ B) (hS : |d| ≤ 33 / 32 * S) (hSB : S ≤ B) (hhB : h ≤ 33 / 32 * B) : ∀ {k : Nat}, (k : K) * h ≤ N + h →
    (k : K) * (10 * B / 2 ^ 53) ≤ B / 16 →
    |walk rd (rd (h * rd (d / N))) a k - (a + k * h * (d / N))| ≤ k * (10 * B / 2 ^ 53)
  | 0, _, _ => by simp [walk]
  | k + 1, hk, hkB => by
    have hB : 0 ≤ B := (abs_nonneg a).trans ha
    have hD : 0 ≤ 10 * B / 2 ^ 53 := by positivity
    push_cast at hk hkB ⊢
    have ih := walk_err hrd hh hN hd ha hS hSB hhB (k := k) (by linarith) (by linarith)
    obtain ⟨u, hu⟩ : ∃ u, u = d / N := ⟨_, rfl⟩
    have hua : |u| ≤ 65 / 64 := by
      rw [hu, abs_div, abs_of_pos hN, div_le_iff₀ hN]; exact hd
    have hNu : N * |u| = |d| := by
      rw [hu, abs_div, abs_of_pos hN]; field_simp
    rw [← hu] at ih ⊢
    have hi := inc_err hrd hh hua
    obtain ⟨inc, hinc⟩ : ∃ i, i = rd (h * rd u) := ⟨_, rfl⟩
    rw [← hinc] at ih hi ⊢
    rw [walk]
    obtain ⟨w, hw⟩ : ∃ w, w = walk rd inc a k := ⟨_, rfl⟩
    rw [← hw] at ih ⊢
    have ideal : |((k : K) + 1) * h * u| ≤ 33 / 32 * B + 33 / 32 * B * (65 / 64) := by
      rw [abs_mul, abs_of_nonneg (by positivity)]
      have h1 : ((k : K) + 1) * h * |u| ≤ (N + h) * |u| := mul_le_mul_of_nonneg_right hk (abs_nonneg _)
      have h2 : h * |u| ≤ 33 / 32 * B * (65 / 64) := mul_le_mul hhB hua (abs_nonneg _) (by linarith)
      have h3 : (N + h) * |u| = |d| + h * |u| := by rw [add_mul, hNu]
      linarith
    have near : |w + inc - (a + ((k : K) + 1) * h * u)| ≤ k * (10 * B / 2 ^ 53) + 5 * h / 2 ^ 53 := by
      have : w + inc - (a + ((k : K) + 1) * h * u) = (w - (a + k * h * u)) + (inc - h * u) := by ring
      rw [this]
      exact (abs_add_le _ _).trans (add_le_add ih hi)
    have h5 : 5 * h / 2 ^ 53 ≤ 6 * B / 2 ^ 53 := by
      apply div_le_div_of_nonneg_right _ (by positivity)
      linarith
    have h6 : (6 : K) * B / 2 ^ 53 ≤ B / 16 := by
      rw [div_le_div_iff₀ (by positivity) (by positivity)]
      nlinarith
    have size : |w + inc| ≤ 4 * B := by
      have t1 : |w + inc| ≤ |w + inc - (a + ((k : K) + 1) * h * u)| + |a + ((k : K) + 1) * h * u| := by
        simpa using abs_add_le (w + inc - (a + ((k : K) + 1) * h * u)) (a + ((k : K) + 1) * h * u)
      have t2 := abs_add_le a (((k : K) + 1) * h * u)
      linarith
    have e := hrd (w + inc)
    have h7 : |w + inc| / 2 ^ 53 ≤ 4 * B / 2 ^ 53 := by gcongr
    have t1 : |rd (w + inc) - (a + ((k : K) + 1) * h * u)| ≤
        |rd (w + inc) - (w + inc)| + |w + inc - (a + ((k : K) + 1) * h * u)| := by
      simpa using abs_add_le (rd (w + inc) - (w + inc)) (w + inc - (a + ((k : K) + 1) * h * u))
    have : ((k : K) + 1) * (10 * B / 2 ^ 53) = k * (10 * B / 2 ^ 53) + 6 * B / 2 ^ 53 + 4 * B / 2 ^ 53 := by ring
    linarith

theorem squaredNorm_err {rd : K → K} (hrd : DoublePrecision rd) (v : Vec K) :
    |squaredNormRd rd v - (v.x * v.x + v.y * v.y)| ≤ (v.x * v.x + v.y * v.y) / 2 ^ 51 := by
  have h1 := hrd (v.x * v.x)
  have h2 := hrd (v.y * v.y)
  have h3 := hrd (rd (v.x * v.x) + rd (v.y * v.y))
  have px := mul_self_nonneg v.x
  have py := mul_self_nonneg v.y
  unfold squaredNormRd
  rw [abs_of_nonneg px] at h1
  rw [abs_of_nonneg py] at h2
  generalize v.x * v.x = X at *
  generalize v.y * v.y = Y at *
  rw [abs_le] at h1 h2
  have x1 : X / 2 ^ 53 ≤ X := div_le_self px (by norm_num)
  have y1 : Y / 2 ^ 53 ≤ Y := div_le_self py (by norm_num)
  have pz : 0 ≤ rd X + rd Y := by linarith [h1.1, h2.1]
  rw [abs_of_nonneg pz] at h3
  have h4 : (rd X + rd Y) / 2 ^ 53 ≤ 2 * (X + Y) / 2 ^ 53 := by gcongr; linarith [h1.2, h2.2]
  have e1 : (X + Y) / 2 ^ 51 = X / 2 ^ 53 + Y / 2 ^ 53 + 2 * (X + Y) / 2 ^ 53 + (X + Y) / 2 ^ 53 := by ring
  have e2 : 0 ≤ (X + Y) / 2 ^ 53 := by positivity
  rw [abs_le] at h3 ⊢
  constructor <;> linarith [h1.1, h1.2, h2.1, h2.2, h3.1, h3.2]

theorem norm_err {rd sqrt : K → K} (hrd : DoublePrecision rd) (hsq : SqrtClose sqrt) (v : Vec K) :
    0 ≤ sqrt (squaredNormRd rd v) ∧
      |sqrt (squaredNormRd rd v) ^ 2 - (v.x * v.x + v.y * v.y)| ≤ (v.x * v.x + v.y * v.y) / 2 ^ 48 := by
  have h1 := squaredNorm_err hrd v
  have px := mul_self_nonneg v.x
  have py := mul_self_nonneg v.y
  obtain ⟨X, hX⟩ : ∃ X, X = v.x * v.x + v.y * v.y := ⟨_, rfl⟩
  have hX0 : 0 ≤ X := by rw [hX]; linarith
  rw [← hX] at h1 ⊢
  have x1 : X / 2 ^ 51 ≤ X := div_le_self hX0 (by norm_num)
  rw [abs_le] at h1
  obtain ⟨n0, n1⟩ := hsq (squaredNormRd rd v) (by linarith [h1.1])
  refine ⟨n0, ?_⟩
  have h2 : squaredNormRd rd v / 2 ^ 50 ≤ 2 * X / 2 ^ 50 := by
    apply div_le_div_of_nonneg_right _ (by positivity)
    linarith [h1.2]
  have e1 : X / 2 ^ 48 = 2 * X / 2 ^ 50 + X / 2 ^ 51 + 3 * (X / 2 ^ 51) := by ring
  have e2 : 0 ≤ X / 2 ^ 51 := by positivity
  rw [abs_le] at n1 ⊢
  constructor <;> linarith [h1.1, h1.2, n1.1, n1.2]

/-- What the analysis of the search needs to know about the ends and the step. -/
structure Setup (h r S B : K) : Prop where
  r_pos : 0 < r
  h_lo : 1023 / 1024 * r ≤ h
  h_hi : h ≤ 1025 / 1024 * r
  rS : r ≤ S
  SB : S ≤ B
  prod : S * B ≤ 2 ^ 44 * r ^ 2

/-- The number of steps after which the search is nearest to its end. -/
theorem exists_steps {N h : K} (hh : 0 < h) (hN : 31 / 128 * h ≤ N) :
    ∃ k : Nat, 1 ≤ k ∧ (k : K) * h ≤ N + h ∧ |N - k * h| ≤ 97 / 128 * h := by
  by_cases hs : N < h / 2
  · refine ⟨1, le_refl _, ?_, ?_⟩
    · push_cast; linarith
    · push_cast; rw [abs_le]; constructor <;> linarith
  · push Not at hs
    have hz : 0 ≤ N / h + 1 / 2 := by
      have : 0 ≤ N / h := div_nonneg (by linarith) hh.le
      linarith
    obtain ⟨k, hk⟩ : ∃ k : Nat, (k : Int) = ⌊N / h + 1 / 2⌋ := ⟨_, Int.toNat_of_nonneg (Int.floor_nonneg.2 hz)⟩
    have f1 : (k : K) ≤ N / h + 1 / 2 := by
      have := Int.floor_le (N / h + 1 / 2)
      rw [← hk] at this
      exact_mod_cast this
    have f2 : N / h + 1 / 2 < (k : K) + 1 := by
      have := Int.lt_floor_add_one (N / h + 1 / 2)
      rw [← hk] at this
      exact_mod_cast this
    have e : N = N / h * h := by field_simp
    have g1 : (k : K) * h ≤ (N / h + 1 / 2) * h := mul_le_mul_of_nonneg_right f1 hh.le
    have g2 : (N / h + 1 / 2) * h ≤ ((k : K) + 1) * h := mul_le_mul_of_nonneg_right f2.le hh.le
    rw [add_mul, ← e] at g1 g2
    refine ⟨k, ?_, by linarith, by rw [abs_le]; constructor <;> linarith⟩
    have : (1 : K) ≤ N / h + 1 / 2 := by
      have : 1 / 2 ≤ N / h := by rw [le_div_iff₀ hh]; linarith
      linarith
    have : (1 : Int) ≤ ⌊N / h + 1 / 2⌋ := Int.le_floor.2 (by exact_mod_cast this)
    omega

/-- One axis at the last step: the rest of the way. -/
theorem rest_err {rd : K → K} (hrd : DoublePrecision rd) {h r N a b S B : K} (s : Setup h r S B) (hNh : 31 / 128 * h ≤ N)
    (hd : |rd (b - a)| ≤ 65 / 64 * N) (ha : |a| ≤ B) (hS : |b - a| ≤ S) {k : Nat} (hk : (k : K) * h ≤ N + h)
    (hk' : (k : K) * r ≤ 5 / 2 * S) :
    |walk rd (rd (h * rd (rd (b - a) / N))) a k - (a + k * h * (rd (b - a) / N))| ≤ 25 / 512 * r ∧
    |walk rd (rd (h * rd (rd (b - a) / N))) a k - (a + k * h / N * (b - a))| ≤ 27 / 512 * r ∧
    (|rd (b - walk rd (rd (h * rd (rd (b - a) / N))) a k) - (N - k * h) * (rd (b - a) / N)| ≤ 27 / 512 * r) := by
  have hr := s.r_pos
  have hh : 0 < h := by linarith [s.h_lo]
  have hN : 0 < N := by linarith
  have hSp : 0 < S := hr.trans_le s.rS
  have hB : 0 < B := hSp.trans_le s.SB
  have hS22 : S ≤ 2 ^ 22 * r := by
    have h1 : S * S ≤ S * B := mul_le_mul_of_nonneg_left s.SB hSp.le
    have h2 : S * S ≤ (2 ^ 22 * r) * (2 ^ 22 * r) := by
      refine (h1.trans s.prod).trans_eq ?_
      ring
    exact le_of_not_gt fun hc => absurd h2 (not_le.2 (mul_self_lt_mul_self (by positivity) hc))
  have hd' := hrd (b - a)
  have tiny : S / 2 ^ 53 ≤ r / 2 ^ 31 := by
    rw [div_le_div_iff₀ (by positivity) (by positivity)]
    calc S * 2 ^ 31 ≤ 2 ^ 22 * r * 2 ^ 31 := by gcongr
      _ = r * 2 ^ 53 := by ring
  have d1 : |rd (b - a) - (b - a)| ≤ r / 2 ^ 31 := by
    refine (hd'.trans ?_).trans tiny
    gcongr
  have dS : |rd (b - a)| ≤ 33 / 32 * S := by
    have : |rd (b - a)| ≤ |rd (b - a) - (b - a)| + |b - a| := by simpa using abs_add_le (rd (b - a) - (b - a)) (b - a)
    have : r / 2 ^ 31 ≤ 1 / 32 * S := by
      have : r / 2 ^ 31 ≤ r / 32 := by apply div_le_div_of_nonneg_left hr.le <;> norm_num
      linarith [s.rS]
    linarith
  have kd : (k : K) * (10 * B / 2 ^ 53) ≤ 25 / 512 * r := by
    have e : (k : K) * (10 * B / 2 ^ 53) = (k * r) * (10 * B / 2 ^ 53) / r := by field_simp
    rw [e, div_le_iff₀ hr]
    calc (k : K) * r * (10 * B / 2 ^ 53) ≤ 5 / 2 * S * (10 * B / 2 ^ 53) := by gcongr
      _ = S * B * (25 / 2 ^ 53) := by ring
      _ ≤ 2 ^ 44 * r ^ 2 * (25 / 2 ^ 53) := mul_le_mul_of_nonneg_right s.prod (by positivity)
      _ = 25 / 512 * r * r := by ring
  have kB : (k : K) * (10 * B / 2 ^ 53) ≤ B / 16 := by linarith [s.rS, s.SB]
  have hw := (walk_err hrd hh hN hd ha dS s.SB (by linarith [s.h_hi, s.rS, s.SB]) hk kB).trans kd
  obtain ⟨w, hwd⟩ : ∃ w, w = walk rd (rd (h * rd (rd (b - a) / N))) a k := ⟨_, rfl⟩
  rw [← hwd] at hw ⊢
  obtain ⟨d, hdd⟩ : ∃ d, d = rd (b - a) := ⟨_, rfl⟩
  rw [← hdd] at hw hd d1 dS ⊢
  refine ⟨hw, ?_, ?_⟩
  · have e : w - (a + k * h / N * (b - a)) = (w - (a + k * h * (d / N))) + k * h / N * (d - (b - a)) := by
      field_simp; ring
    rw [e]
    have q0 : 0 ≤ (k : K) * h / N := by positivity
    have q : (k : K) * h / N ≤ 6 := by rw [div_le_iff₀ hN]; linarith
    have : |(k : K) * h / N * (d - (b - a))| ≤ 6 * (r / 2 ^ 31) := by
      rw [abs_mul, abs_of_nonneg q0]
      exact mul_le_mul q d1 (abs_nonneg _) (by norm_num)
    have t : 6 * (r / 2 ^ 31) ≤ 2 / 512 * r := by
      rw [show 6 * (r / 2 ^ 31) = 6 / 2 ^ 31 * r by ring]
      exact mul_le_mul_of_nonneg_right (by norm_num) hr.le
    exact (abs_add_le _ _).trans (by linarith)
  · have hu : |d / N| ≤ 65 / 64 := by rw [abs_div, abs_of_pos hN, div_le_iff₀ hN]; exact hd
    have e : b - w - (N - k * h) * (d / N) = -(w - (a + k * h * (d / N))) - (d - (b - a)) := by
      field_simp; ring
    have e1 : |b - w - (N - k * h) * (d / N)| ≤ 25 / 512 * r + r / 2 ^ 31 := by
      rw [e]
      refine (abs_sub _ _).trans ?_
      rw [abs_neg]
      linarith
    have e2 : |(N - k * h) * (d / N)| ≤ 6 * S := by
      rw [show (N - k * h) * (d / N) = (N - k * h) / N * d by ring, abs_mul]
      have q0 : 0 ≤ (k : K) * h := by positivity
      have q : |(N - k * h) / N| ≤ 5 := by
        rw [abs_div, abs_of_pos hN, div_le_iff₀ hN, abs_le]
        constructor <;> linarith
      have : |(N - k * h) / N| * |d| ≤ 5 * (33 / 32 * S) := mul_le_mul q dS (abs_nonneg _) (by norm_num)
      linarith
    have t : r / 2 ^ 31 ≤ 1 / 512 * r := by
      rw [show r / 2 ^ 31 = 1 / 2 ^ 31 * r by ring]
      exact mul_le_mul_of_nonneg_right (by norm_num) hr.le
    have e3 : |b - w| ≤ 7 * S := by
      have : |b - w| ≤ |b - w - (N - k * h) * (d / N)| + |(N - k * h) * (d / N)| := by
        simpa using abs_add_le (b - w - (N - k * h) * (d / N)) ((N - k * h) * (d / N))
      linarith [s.rS]
    have e4 := hrd (b - w)
    have e5 : |b - w| / 2 ^ 53 ≤ 1 / 512 * r := by
      rw [div_le_iff₀ (by positivity)]
      linarith
    have : |rd (b - w) - (N - k * h) * (d / N)| ≤ |rd (b - w) - (b - w)| + |b - w - (N - k * h) * (d / N)| := by
      simpa using abs_add_le (rd (b - w) - (b - w)) (b - w - (N - k * h) * (d / N))
    linarith

theorem sq_add_le (p q : K) : (p + q) ^ 2 ≤ 5 / 4 * p ^ 2 + 5 * q ^ 2 := by
  have := sq_nonneg (p / 2 - 2 * q)
  nlinarith

/-- The last step of the search is taken: the rest of the way is shorter than a step. -/
theorem rest_short {rd sqrt : K → K} (hrd : DoublePrecision rd) (hsq : SqrtClose sqrt) {h r e ux uy : K} (hr : 0 < r)
    (h_lo : 1023 / 1024 * r ≤ h) (he : |e| ≤ 97 / 128 * h) (hu : ux ^ 2 + uy ^ 2 ≤ 1025 / 1024) {v : Vec K}
    (hx : |v.x - e * ux| ≤ 27 / 512 * r) (hy : |v.y - e * uy| ≤ 27 / 512 * r) : sqrt (squaredNormRd rd v) < h := by
  have hh : 0 < h := by linarith
  obtain ⟨n0, n1⟩ := norm_err hrd hsq v
  rw [abs_le] at n1
  have e2 : e ^ 2 ≤ (97 / 128 * h) ^ 2 := by rw [← sq_abs]; gcongr
  have x2 : (v.x - e * ux) ^ 2 ≤ (27 / 512 * r) ^ 2 := by rw [← sq_abs]; gcongr
  have y2 : (v.y - e * uy) ^ 2 ≤ (27 / 512 * r) ^ 2 := by rw [← sq_abs]; gcongr
  have a1 := sq_add_le (e * ux) (v.x - e * ux)
  have a2 := sq_add_le (e * uy) (v.y - e * uy)
  have r2 : (1023 / 1024 * r) ^ 2 ≤ h ^ 2 := by gcongr
  have m : e ^ 2 * (ux ^ 2 + uy ^ 2) ≤ (97 / 128 * h) ^ 2 * (1025 / 1024) := mul_le_mul e2 hu (by positivity) (by positivity)
  have tot : v.x * v.x + v.y * v.y ≤ 15 / 16 * h ^ 2 := by
    have : v.x * v.x + v.y * v.y ≤ 5 / 4 * (e ^ 2 * (ux ^ 2 + uy ^ 2)) + 10 * (27 / 512 * r) ^ 2 := by
      calc v.x * v.x + v.y * v.y = (e * ux + (v.x - e * ux)) ^ 2 + (e * uy + (v.y - e * uy)) ^ 2 := by ring
        _ ≤ (5 / 4 * (e * ux) ^ 2 + 5 * (v.x - e * ux) ^ 2) + (5 / 4 * (e * uy) ^ 2 + 5 * (v.y - e * uy) ^ 2) := add_le_add a1 a2
        _ ≤ _ := by linarith
    have h2 := sq_nonneg h
    rw [mul_pow] at r2 m this
    have : r ^ 2 ≤ 1026 / 1023 * h ^ 2 := by linarith
    linarith
  have p0 : 0 ≤ v.x * v.x + v.y * v.y := by have := mul_self_nonneg v.x; have := mul_self_nonneg v.y; linarith
  have hp := sq_pos_of_pos hh
  have small : (v.x * v.x + v.y * v.y) / 2 ^ 48 ≤ 1 / 32 * h ^ 2 := by
    rw [div_le_iff₀ (by positivity)]
    linarith
  have : sqrt (squaredNormRd rd v) ^ 2 < h ^ 2 := by linarith [n1.2]
  exact lt_of_pow_lt_pow_left₀ 2 hh.le this

theorem sq_add_ge (p q : K) : 7 / 8 * p ^ 2 - 7 * q ^ 2 ≤ (p + q) ^ 2 := by
  have := sq_nonneg (p / 8 + q)
  nlinarith

/-- More than a step before the end the search goes on. -/
theorem rest_long {rd sqrt : K → K} (hrd : DoublePrecision rd) (hsq : SqrtClose sqrt) {h r e ux uy : K} (hr : 0 < r)
    (h_lo : 1023 / 1024 * r ≤ h) (he : 5 / 4 * h ≤ e) (hu : 1023 / 1024 ≤ ux ^ 2 + uy ^ 2) {v : Vec K}
    (hx : |v.x - e * ux| ≤ 27 / 512 * r) (hy : |v.y - e * uy| ≤ 27 / 512 * r) : ¬ sqrt (squaredNormRd rd v) < h := by
  have hh : 0 < h := by linarith
  obtain ⟨n0, n1⟩ := norm_err hrd hsq v
  rw [abs_le] at n1
  have e2 : (5 / 4 * h) ^ 2 ≤ e ^ 2 := by gcongr
  have x2 : (v.x - e * ux) ^ 2 ≤ (27 / 512 * r) ^ 2 := by rw [← sq_abs]; gcongr
  have y2 : (v.y - e * uy) ^ 2 ≤ (27 / 512 * r) ^ 2 := by rw [← sq_abs]; gcongr
  have a1 := sq_add_ge (e * ux) (v.x - e * ux)
  have a2 := sq_add_ge (e * uy) (v.y - e * uy)
  have r2 : (1023 / 1024 * r) ^ 2 ≤ h ^ 2 := by gcongr
  have m : (5 / 4 * h) ^ 2 * (1023 / 1024) ≤ e ^ 2 * (ux ^ 2 + uy ^ 2) := mul_le_mul e2 hu (by norm_num) (by positivity)
  have hp := sq_pos_of_pos hh
  have tot : 33 / 32 * h ^ 2 ≤ v.x * v.x + v.y * v.y := by
    have : 7 / 8 * (e ^ 2 * (ux ^ 2 + uy ^ 2)) - 14 * (27 / 512 * r) ^ 2 ≤ v.x * v.x + v.y * v.y := by
      calc 7 / 8 * (e ^ 2 * (ux ^ 2 + uy ^ 2)) - 14 * (27 / 512 * r) ^ 2
          ≤ (7 / 8 * (e * ux) ^ 2 - 7 * (v.x - e * ux) ^ 2) + (7 / 8 * (e * uy) ^ 2 - 7 * (v.y - e * uy) ^ 2) := by linarith
        _ ≤ (e * ux + (v.x - e * ux)) ^ 2 + (e * uy + (v.y - e * uy)) ^ 2 := add_le_add a1 a2
        _ = _ := by ring
    rw [mul_pow] at r2 m this
    have : r ^ 2 ≤ 1026 / 1023 * h ^ 2 := by linarith
    linarith
  have small : (v.x * v.x + v.y * v.y) / 2 ^ 48 ≤ 1 / 64 * (v.x * v.x + v.y * v.y) := by
    rw [div_le_iff₀ (by positivity)]
    linarith
  intro hlt
  have : sqrt (squaredNormRd rd v) ^ 2 < h ^ 2 := by gcongr
  linarith [n1.1]

/-- The points the search visits. -/
def visit (rd : K → K) (m : CostMap K) (dir a : Vec K) (k : Nat) : Vec K :=
  ⟨walk rd (rd (stepRd rd m * dir.x)) a.x k, walk rd (rd (stepRd rd m * dir.y)) a.y k⟩

/-- The search ends at the `k`-th point at the latest. -/
theorem searchI_run {rd sqrt : K → K} {m : CostMap K} {dir a stop : Vec K} {k : Nat}
    (hnear : ∀ j < k, m.getIndexI rd (visit rd m dir a j) = some (m.getIndexRd rd (visit rd m dir a j)))
    (hstop : sqrt (squaredNormRd rd ⟨rd (stop.x - (visit rd m dir a k).x), rd (stop.y - (visit rd m dir a k).y)⟩) < stepRd rd m) :
    ∀ (n j : Nat), j + n + 1 = k → ∃ r, (∀ fuel, n + 1 ≤ fuel → searchI rd sqrt m stop dir fuel (visit rd m dir a j) = .ok r) ∧
      (∀ i, r = some i → ∃ j', j' < k ∧ m.getIndexRd rd (visit rd m dir a j') = (i, true)) ∧
      (r = none → ∀ j', j ≤ j' → j' < k →
        (∀ i, i ≤ j' → ¬ sqrt (squaredNormRd rd ⟨rd (stop.x - (visit rd m dir a i).x), rd (stop.y - (visit rd m dir a i).y)⟩) <
          stepRd rd m) → (m.getIndexRd rd (visit rd m dir a j')).2 = false) := by
  intro n
  induction n with
  | zero =>
    intro j hj
    obtain ⟨⟨i, inside⟩, hi⟩ : ∃ q, q = m.getIndexRd rd (visit rd m dir a j) := ⟨_, rfl⟩
    have hn := hnear j (by omega)
    rw [← hi] at hn
    cases inside with
    | true =>
      refine ⟨some i, fun fuel hf => ?_, fun i' h => ?_, fun h => by cases h⟩
      · obtain ⟨f, rfl⟩ : ∃ f, fuel = f + 1 := ⟨fuel - 1, by omega⟩
        rw [searchI, hn]; rfl
      · cases h
        exact ⟨j, by omega, hi.symm⟩
    | false =>
      refine ⟨none, fun fuel hf => ?_, fun i' h => (by cases h), fun _ j' h1 h2 _ => ?_⟩
      swap
      · obtain rfl : j' = j := by omega
        rw [← hi]
      obtain ⟨f, rfl⟩ : ∃ f, fuel = f + 1 := ⟨fuel - 1, by omega⟩
      rw [searchI, hn]
      have e : advanceRd rd m dir (visit rd m dir a j) = visit rd m dir a k := by rw [← hj]; rfl
      simp only [Bool.false_eq_true, if_false, e]
      rw [if_pos hstop]
  | succ n ih =>
    intro j hj
    obtain ⟨⟨i, inside⟩, hi⟩ : ∃ q, q = m.getIndexRd rd (visit rd m dir a j) := ⟨_, rfl⟩
    have hn := hnear j (by omega)
    rw [← hi] at hn
    cases inside with
    | true =>
      refine ⟨some i, fun fuel hf => ?_, fun i' h => ?_, fun h => by cases h⟩
      · obtain ⟨f, rfl⟩ : ∃ f, fuel = f + 1 := ⟨fuel - 1, by omega⟩
        rw [searchI, hn]; rfl
      · cases h
        exact ⟨j, by omega, hi.symm⟩
    | false =>
      have e : advanceRd rd m dir (visit rd m dir a j) = visit rd m dir a (j + 1) := rfl
      by_cases hs : sqrt (squaredNormRd rd ⟨rd (stop.x - (visit rd m dir a (j + 1)).x),
          rd (stop.y - (visit rd m dir a (j + 1)).y)⟩) < stepRd rd m
      · refine ⟨none, fun fuel hf => ?_, fun i' h => (by cases h), fun _ j' h1 h2 h3 => ?_⟩
        swap
        · rcases Nat.eq_or_lt_of_le h1 with rfl | h1
          · rw [← hi]
          · exact absurd hs (h3 _ h1)
        obtain ⟨f, rfl⟩ : ∃ f, fuel = f + 1 := ⟨fuel - 1, by omega⟩
        rw [searchI, hn]
        simp only [Bool.false_eq_true, if_false, e]
        rw [if_pos hs]
      · obtain ⟨r, h1, h2, h4⟩ := ih (j + 1) (by omega)
        refine ⟨r, fun fuel hf => ?_, h2, fun hr j' g1 g2 g3 => ?_⟩
        swap
        · rcases Nat.eq_or_lt_of_le g1 with rfl | g1
          · rw [← hi]
          · exact h4 hr j' g1 g2 g3
        obtain ⟨f, rfl⟩ : ∃ f, fuel = f + 1 := ⟨fuel - 1, by omega⟩
        rw [searchI, hn]
        simp only [Bool.false_eq_true, if_false, e]
        rw [if_neg hs, h1 f (by omega)]

theorem Setup.S22 {h r S B : K} (s : Setup h r S B) : S ≤ 2 ^ 22 * r := by
  have hr := s.r_pos
  have hSp : 0 < S := hr.trans_le s.rS
  have h1 : S * S ≤ S * B := mul_le_mul_of_nonneg_left s.SB hSp.le
  have h2 : S * S ≤ (2 ^ 22 * r) * (2 ^ 22 * r) := by
    refine (h1.trans s.prod).trans_eq ?_
    ring
  exact le_of_not_gt fun hc => absurd h2 (not_le.2 (mul_self_lt_mul_self (by positivity) hc))

theorem sq_le_of_abs {x y c : K} (h : x * x ≤ c * (y * y)) (hc : c ≤ (65 / 64) ^ 2) (hy : 0 ≤ y) : |x| ≤ 65 / 64 * y := by
  apply abs_le_of_sq_le_sq _ (by positivity)
  calc x ^ 2 = x * x := sq x
    _ ≤ c * (y * y) := h
    _ ≤ (65 / 64) ^ 2 * (y * y) := mul_le_mul_of_nonneg_right hc (mul_self_nonneg y)
    _ = _ := by ring

set_option maxHeartbeats 1000000 in
/-- The search between two ends that coincide or are a quarter of a cell apart ends, and what it finds is near the segment. -/
theorem search_ends {rd sqrt : K → K} (hrd : DoublePrecision rd) (hsq : SqrtClose sqrt) {m : CostMap K} {S B : K}
    (s : Setup (stepRd rd m) m.resolution S B) {a b : Vec K} (he : Ends S B a b)
    (hgap : a = b ∨ m.resolution / 4 ≤ |b.x - a.x| ∨ m.resolution / 4 ≤ |b.y - a.y|)
    (hnear : ∀ p : Vec K, |p.x - a.x| ≤ S + m.resolution → |p.y - a.y| ≤ S + m.resolution →
      m.getIndexI rd p = some (m.getIndexRd rd p)) :
    ∃ k r, (∀ fuel, k ≤ fuel → indexLimitedI rd sqrt fuel m a b = .ok r) ∧
      (∀ i, r = some i → ∃ p, NearSegment (m.resolution / 16) a b p ∧ m.getIndexRd rd p = (i, true)) ∧
      (r = none → ∀ t₀ t₁ : K, 0 ≤ t₀ → t₁ ≤ 1 →
        4 * m.resolution ≤ (t₁ - t₀) * |b.x - a.x| ∨ 4 * m.resolution ≤ (t₁ - t₀) * |b.y - a.y| →
        ∃ (p : Vec K) (t : K), t₀ ≤ t ∧ t ≤ t₁ ∧ |p.x - (a.x + t * (b.x - a.x))| ≤ m.resolution / 16 ∧
          |p.y - (a.y + t * (b.y - a.y))| ≤ m.resolution / 16 ∧ (m.getIndexRd rd p).2 = false) := by
  have hr := s.r_pos
  have hh : 0 < stepRd rd m := by linarith [s.h_lo]
  have hS22 := s.S22
  have hSp : 0 < S := hr.trans_le s.rS
  by_cases hab : a = b
  · -- the direction is zero
    subst hab
    have rd0 : rd 0 = 0 := by have := hrd 0; simpa using this
    have dir0 : normalizedRd rd sqrt ⟨rd (a.x - a.x), rd (a.y - a.y)⟩ = ⟨0, 0⟩ := by
      simp [normalizedRd, squaredNormRd, rd0]
    have v1 : visit rd m ⟨0, 0⟩ a 1 = ⟨rd a.x, rd a.y⟩ := by simp [visit, walk, rd0]
    have B44 : B ≤ 2 ^ 44 * m.resolution := by
      have h1 : m.resolution * B ≤ S * B := mul_le_mul_of_nonneg_right s.rS (by linarith [s.SB])
      have h2 : m.resolution * B ≤ m.resolution * (2 ^ 44 * m.resolution) := by
        refine (h1.trans s.prod).trans_eq ?_; ring
      exact le_of_mul_le_mul_left h2 hr
    have key : ∀ {c : K}, |c| ≤ B → |rd (c - rd c) - 0 * 0| ≤ 27 / 512 * m.resolution := by
      intro c hc
      have e1 := hrd c
      have e2 := hrd (c - rd c)
      rw [abs_sub_comm] at e1
      have e3 : |c| / 2 ^ 53 ≤ 1 / 512 * m.resolution := by
        rw [div_le_iff₀ (by positivity)]
        linarith
      have e4 : |c - rd c| / 2 ^ 53 ≤ |c - rd c| := div_le_self (abs_nonneg _) (by norm_num)
      have : |rd (c - rd c)| ≤ |rd (c - rd c) - (c - rd c)| + |c - rd c| := by
        simpa using abs_add_le (rd (c - rd c) - (c - rd c)) (c - rd c)
      rw [mul_zero, sub_zero]
      linarith
    obtain ⟨r, h1, h2, -⟩ := searchI_run (rd := rd) (sqrt := sqrt) (m := m) (dir := ⟨0, 0⟩) (a := a) (stop := a) (k := 1)
      (fun j hj => hnear _ (by
        obtain rfl : j = 0 := by omega
        simp only [visit, walk, sub_self, abs_zero]; linarith) (by
        obtain rfl : j = 0 := by omega
        simp only [visit, walk, sub_self, abs_zero]; linarith))
      (by
        rw [v1]
        exact rest_short hrd hsq (e := 0) (ux := 0) (uy := 0) hr s.h_lo (by rw [abs_zero]; positivity) (by norm_num)
          (key he.ax) (key he.ay)) 0 0 rfl
    refine ⟨1, r, fun fuel hf => ?_, fun i hi => ?_, fun _ t₀ t₁ _ _ hlen => ?_⟩
    · rw [indexLimitedI, dir0]
      exact h1 fuel hf
    · obtain ⟨j, hj, hj'⟩ := h2 i hi
      obtain rfl : j = 0 := by omega
      refine ⟨a, ⟨0, le_refl _, zero_le_one, ?_, ?_⟩, hj'⟩
      · rw [zero_mul, add_zero, sub_self, abs_zero]; positivity
      · rw [zero_mul, add_zero, sub_self, abs_zero]; positivity
    · exfalso
      simp only [sub_self, abs_zero, mul_zero] at hlen
      rcases hlen with h | h <;> linarith
  · have hgap := hgap.resolve_left hab
    obtain ⟨d, hd⟩ : ∃ d : Vec K, d = ⟨rd (b.x - a.x), rd (b.y - a.y)⟩ := ⟨_, rfl⟩
    obtain ⟨N, hN⟩ : ∃ N, N = sqrt (squaredNormRd rd d) := ⟨_, rfl⟩
    have hz := squaredNorm_err hrd d
    obtain ⟨n0, n1⟩ := norm_err hrd hsq d
    rw [← hN] at n0 n1
    -- the components of the difference
    have cx := hrd (b.x - a.x)
    have cy := hrd (b.y - a.y)
    have up : ∀ {x y : K}, |x - y| ≤ |y| / 2 ^ 53 → |y| ≤ S → |x| ≤ 1025 / 1024 * S := by
      intro x y h1 h2
      have : |y| / 2 ^ 53 ≤ 1 / 1024 * S := by
        rw [div_le_iff₀ (by positivity)]
        linarith
      have : |x| ≤ |x - y| + |y| := by simpa using abs_add_le (x - y) y
      linarith
    have lo : ∀ {x y : K}, |x - y| ≤ |y| / 2 ^ 53 → m.resolution / 4 ≤ |y| → 1023 / 4096 * m.resolution ≤ |x| := by
      intro x y h1 h2
      have h3 : |y| / 2 ^ 53 ≤ 1 / 1024 * |y| := by
        rw [div_le_iff₀ (by positivity)]
        linarith [abs_nonneg y]
      have : |y| ≤ |x - y| + |x| := by
        have := abs_add_le (y - x) x
        rw [sub_add_cancel, abs_sub_comm] at this
        exact this
      linarith
    have ux := up cx he.dx
    have uy := up cy he.dy
    obtain ⟨X, hX⟩ : ∃ X, X = d.x * d.x + d.y * d.y := ⟨_, rfl⟩
    rw [← hX] at n1 hz
    have px := mul_self_nonneg d.x
    have py := mul_self_nonneg d.y
    have hX1 : X ≤ 2 * (1025 / 1024 * S) ^ 2 := by
      have t1 : d.x * d.x ≤ (1025 / 1024 * S) ^ 2 := by
        rw [← sq, ← sq_abs, hd]; gcongr
      have t2 : d.y * d.y ≤ (1025 / 1024 * S) ^ 2 := by
        rw [← sq, ← sq_abs, hd]; gcongr
      linarith
    have hX2 : (1023 / 4096 * m.resolution) ^ 2 ≤ X := by
      rcases hgap with h | h
      · have : (1023 / 4096 * m.resolution) ^ 2 ≤ d.x * d.x := by
          rw [← sq d.x, ← sq_abs d.x, hd]
          exact pow_le_pow_left₀ (by positivity) (lo cx h) 2
        linarith
      · have : (1023 / 4096 * m.resolution) ^ 2 ≤ d.y * d.y := by
          rw [← sq d.y, ← sq_abs d.y, hd]
          exact pow_le_pow_left₀ (by positivity) (lo cy h) 2
        linarith
    have hXp : 0 < X := lt_of_lt_of_le (by positivity) hX2
    have t1 : X / 2 ^ 48 ≤ 1 / 65536 * X := by rw [div_le_iff₀ (by positivity)]; linarith
    have t2 : X / 2 ^ 51 ≤ 1 / 2 * X := by rw [div_le_iff₀ (by positivity)]; linarith
    rw [abs_le] at n1 hz
    have hzp : 0 < squaredNormRd rd d := by linarith [hz.1]
    have N2a : 65535 / 65536 * X ≤ N ^ 2 := by linarith [n1.1]
    have N2b : N ^ 2 ≤ 65537 / 65536 * X := by linarith [n1.2]
    have hNp : 0 < N := by
      rcases n0.lt_or_eq with h | h
      · exact h
      · rw [← h] at N2a; norm_num at N2a; linarith
    have hNS : N ≤ 363 / 256 * S := by
      apply le_of_abs_le
      apply abs_le_of_sq_le_sq _ (by positivity)
      nlinarith
    have hNh : 31 / 128 * stepRd rd m ≤ N := by
      apply le_of_abs_le
      apply abs_le_of_sq_le_sq _ hNp.le
      have : (31 / 128 * stepRd rd m) ^ 2 ≤ (31 / 128 * (1025 / 1024 * m.resolution)) ^ 2 := by
        gcongr; exact s.h_hi
      nlinarith [sq_pos_of_pos hr]
    have dNx : |d.x| ≤ 65 / 64 * N := by
      apply sq_le_of_abs (c := 65536 / 65535) _ (by norm_num) hNp.le
      rw [← sq N]; linarith
    have dNy : |d.y| ≤ 65 / 64 * N := by
      apply sq_le_of_abs (c := 65536 / 65535) _ (by norm_num) hNp.le
      rw [← sq N]; linarith
    have unit : (d.x / N) ^ 2 + (d.y / N) ^ 2 ≤ 1025 / 1024 := by
      rw [div_pow, div_pow, ← add_div, div_le_iff₀ (by positivity), sq d.x, sq d.y, ← hX]
      linarith
    obtain ⟨k, k1, k2, k3⟩ := exists_steps hh hNh
    have kr : (k : K) * m.resolution ≤ 5 / 2 * S := by
      have : (k : K) * (1023 / 1024 * m.resolution) ≤ k * stepRd rd m := by gcongr; exact s.h_lo
      linarith [s.h_hi, s.rS]
    have dirE : normalizedRd rd sqrt d = ⟨rd (d.x / N), rd (d.y / N)⟩ := by
      rw [normalizedRd, if_pos hzp, ← hN]
    have ex : d.x = rd (b.x - a.x) := by rw [hd]
    have ey : d.y = rd (b.y - a.y) := by rw [hd]
    have unit' : 1023 / 1024 ≤ (d.x / N) ^ 2 + (d.y / N) ^ 2 := by
      rw [div_pow, div_pow, ← add_div, le_div_iff₀ (by positivity), sq d.x, sq d.y, ← hX]
      linarith
    -- all points before the last one
    have pts' : ∀ j < k, |(visit rd m ⟨rd (d.x / N), rd (d.y / N)⟩ a j).x - (a.x + j * stepRd rd m / N * (b.x - a.x))| ≤
          m.resolution / 16 ∧
        |(visit rd m ⟨rd (d.x / N), rd (d.y / N)⟩ a j).y - (a.y + j * stepRd rd m / N * (b.y - a.y))| ≤ m.resolution / 16 ∧
        (j : K) * stepRd rd m ≤ N := by
      intro j hj
      have jk : (j : K) + 1 ≤ k := by exact_mod_cast hj
      have j1 : ((j : K) + 1) * stepRd rd m ≤ k * stepRd rd m := mul_le_mul_of_nonneg_right jk hh.le
      have j2 : (j : K) * stepRd rd m ≤ N := by linarith
      have j3 : (j : K) * m.resolution ≤ 5 / 2 * S := by
        have : (j : K) * m.resolution ≤ k * m.resolution :=
          mul_le_mul_of_nonneg_right (by linarith) hr.le
        linarith
      have qx := (rest_err hrd s hNh (a := a.x) (b := b.x) (ex ▸ dNx) he.ax he.dx (k := j) (by linarith) j3).2.1
      have qy := (rest_err hrd s hNh (a := a.y) (b := b.y) (ey ▸ dNy) he.ay he.dy (k := j) (by linarith) j3).2.1
      refine ⟨?_, ?_, j2⟩
      · have q : m.resolution * (27 / 512) ≤ m.resolution / 16 := by linarith
        rw [mul_comm] at q
        rw [← ex] at qx
        exact qx.trans q
      · have q : m.resolution * (27 / 512) ≤ m.resolution / 16 := by linarith
        rw [mul_comm] at q
        rw [← ey] at qy
        exact qy.trans q
    have pts : ∀ j < k, NearSegment (m.resolution / 16) a b (visit rd m ⟨rd (d.x / N), rd (d.y / N)⟩ a j) := fun j hj => by
      obtain ⟨q1, q2, q3⟩ := pts' j hj
      exact ⟨j * stepRd rd m / N, by positivity, by rw [div_le_one hNp]; exact q3, q1, q2⟩
    have dist : ∀ {p : Vec K}, NearSegment (m.resolution / 16) a b p →
        |p.x - a.x| ≤ S + m.resolution ∧ |p.y - a.y| ≤ S + m.resolution := by
      rintro p ⟨t, t0, t1, gx, gy⟩
      have key : ∀ {x y z : K}, |x - (y + t * z)| ≤ m.resolution / 16 → |z| ≤ S → |x - y| ≤ S + m.resolution := by
        intro x y z h1 h2
        have : |t * z| ≤ 1 * S := by
          rw [abs_mul, abs_of_nonneg t0]
          exact mul_le_mul t1 h2 (abs_nonneg _) zero_le_one
        have : |x - y| ≤ |x - (y + t * z)| + |t * z| := by
          have := abs_add_le (x - (y + t * z)) (t * z)
          rwa [show x - (y + t * z) + t * z = x - y by ring] at this
        linarith
      exact ⟨key gx he.dx, key gy he.dy⟩
    have kx := (rest_err hrd s hNh (a := a.x) (b := b.x) (ex ▸ dNx) he.ax he.dx (k := k) k2 kr).2.2
    have ky := (rest_err hrd s hNh (a := a.y) (b := b.y) (ey ▸ dNy) he.ay he.dy (k := k) k2 kr).2.2
    obtain ⟨r, h1, h2, h3⟩ := searchI_run (rd := rd) (sqrt := sqrt) (m := m) (dir := ⟨rd (d.x / N), rd (d.y / N)⟩) (a := a)
      (stop := b) (k := k) (fun j hj => hnear _ (dist (pts j hj)).1 (dist (pts j hj)).2)
      (rest_short hrd hsq hr s.h_lo k3 unit (ex ▸ kx) (ey ▸ ky))
      (k - 1) 0 (by omega)
    refine ⟨k, r, fun fuel hf => ?_, fun i hi => ?_, fun hr0 t₀ t₁ ht0 ht1 hlen => ?_⟩
    · rw [indexLimitedI, ← hd, dirE]
      exact h1 fuel (by omega)
    · obtain ⟨j, hj, hj'⟩ := h2 i hi
      exact ⟨_, pts j hj, hj'⟩
    · have lo' : ∀ {x y : K}, |x - y| ≤ |y| / 2 ^ 53 → |x| ≤ 65 / 64 * N → |y| ≤ 33 / 32 * N := by
        intro x y h1 h2
        have h3 : |y| / 2 ^ 53 ≤ 1 / 1024 * |y| := by
          rw [div_le_iff₀ (by positivity)]
          linarith [abs_nonneg y]
        have : |y| ≤ |x - y| + |x| := by
          have := abs_add_le (y - x) x
          rw [sub_add_cancel, abs_sub_comm] at this
          exact this
        linarith
      have wide : 4 * m.resolution ≤ (t₁ - t₀) * (33 / 32 * N) := by
        rcases hlen with h | h
        · have hp : 0 ≤ t₁ - t₀ := by
            by_contra hc
            push Not at hc
            have := mul_nonpos_of_nonpos_of_nonneg hc.le (abs_nonneg (b.x - a.x))
            linarith
          exact h.trans (mul_le_mul_of_nonneg_left (lo' cx (ex ▸ dNx)) hp)
        · have hp : 0 ≤ t₁ - t₀ := by
            by_contra hc
            push Not at hc
            have := mul_nonpos_of_nonpos_of_nonneg hc.le (abs_nonneg (b.y - a.y))
            linarith
          exact h.trans (mul_le_mul_of_nonneg_left (lo' cy (ey ▸ dNy)) hp)
      have w1 : 4 * m.resolution ≤ 33 / 32 * (t₁ * N - t₀ * N) := by linarith
      have w2 : t₁ * N ≤ 1 * N := mul_le_mul_of_nonneg_right ht1 hNp.le
      have w0 : 0 ≤ t₀ * N := mul_nonneg ht0 hNp.le
      obtain ⟨j, hj⟩ : ∃ j : Nat, j = ⌈t₀ * N / stepRd rd m⌉₊ := ⟨_, rfl⟩
      have j1 : t₀ * N ≤ j * stepRd rd m := by
        have := Nat.le_ceil (t₀ * N / stepRd rd m)
        rwa [← hj, div_le_iff₀ hh] at this
      have j2 : (j : K) * stepRd rd m < t₀ * N + stepRd rd m := by
        have := Nat.ceil_lt_add_one (div_nonneg w0 hh.le)
        rw [← hj] at this
        have := mul_lt_mul_of_pos_right this hh
        rwa [add_mul, div_mul_cancel₀ _ hh.ne', one_mul] at this
      have hhi := s.h_hi
      have jN : (j : K) * stepRd rd m ≤ N - 5 / 4 * stepRd rd m := by linarith
      have jk : j < k := by
        have q : (j : K) * stepRd rd m < k * stepRd rd m := by
          rw [abs_le] at k3
          linarith
        exact_mod_cast lt_of_mul_lt_mul_right q hh.le
      obtain ⟨q1, q2, -⟩ := pts' j jk
      refine ⟨_, j * stepRd rd m / N, ?_, ?_, q1, q2, h3 hr0 j (by omega) jk fun i hi => ?_⟩
      · rw [le_div_iff₀ hNp]; exact j1
      · rw [div_le_iff₀ hNp]; linarith
      · have ij : (i : K) * stepRd rd m ≤ j * stepRd rd m := mul_le_mul_of_nonneg_right (by exact_mod_cast hi) hh.le
        have ik : (i : K) * m.resolution ≤ k * m.resolution := mul_le_mul_of_nonneg_right (by exact_mod_cast (by omega : i ≤ k)) hr.le
        have ix := (rest_err hrd s hNh (a := a.x) (b := b.x) (ex ▸ dNx) he.ax he.dx (k := i) (by linarith) (by linarith)).2.2
        have iy := (rest_err hrd s hNh (a := a.y) (b := b.y) (ey ▸ dNy) he.ay he.dy (k := i) (by linarith) (by linarith)).2.2
        exact rest_long hrd hsq hr s.h_lo (by linarith) unit' (ex ▸ ix) (ey ▸ iy)

end LineIter
end CostMapModel

import Verif.Spec.RoundedInterpolation
import Verif.Lemmas.Rounded
import Verif.Props.Interpolation

/-!
# Helpers for interpolation in floating point
-/

set_option linter.unusedSectionVars false

namespace CostMapModel
open CostMap
variable {K : Type} [Field K] [LinearOrder K] [IsStrictOrderedRing K] [FloorRing K]

/-- The coefficients of a bilinear function are bounded by its values at the corners of a rectangle. -/
theorem coeff_bound {x0 x1 x2 x3 X0 X1 Y0 Y1 N B : K} (hN : 1 ≤ N) (hB : 0 ≤ B) (hX0 : |X0| ≤ N) (hY0 : |Y0| ≤ N)
    (hdx : 1 / 2 ≤ |X1 - X0|) (hdy : 1 / 2 ≤ |Y1 - Y0|)
    (f0 : |x0 + x1 * X0 + x2 * Y0 + x3 * (X0 * Y0)| ≤ B) (f1 : |x0 + x1 * X1 + x2 * Y0 + x3 * (X1 * Y0)| ≤ B)
    (f2 : |x0 + x1 * X0 + x2 * Y1 + x3 * (X0 * Y1)| ≤ B) (f3 : |x0 + x1 * X1 + x2 * Y1 + x3 * (X1 * Y1)| ≤ B) :
    |x0| + N * |x1| + N * |x2| + N ^ 2 * |x3| ≤ 81 * N ^ 2 * B := by
  have hN0 : 0 ≤ N := by linarith
  have e3 : |x3| * (|X1 - X0| * |Y1 - Y0|) ≤ 4 * B := by
    rw [← abs_mul, ← abs_mul]
    have e : x3 * ((X1 - X0) * (Y1 - Y0)) = (x0 + x1 * X1 + x2 * Y1 + x3 * (X1 * Y1)) - (x0 + x1 * X1 + x2 * Y0 + x3 * (X1 * Y0)) -
      (x0 + x1 * X0 + x2 * Y1 + x3 * (X0 * Y1)) + (x0 + x1 * X0 + x2 * Y0 + x3 * (X0 * Y0)) := by ring
    rw [e]
    rw [abs_le] at f0 f1 f2 f3 ⊢
    constructor <;> linarith
  have q : (1 : K) / 4 ≤ |X1 - X0| * |Y1 - Y0| := by nlinarith
  have h3 : |x3| ≤ 16 * B := by nlinarith [abs_nonneg x3]
  have e1 : |x1 + x3 * Y0| * |X1 - X0| ≤ 2 * B := by
    rw [← abs_mul]
    have e : (x1 + x3 * Y0) * (X1 - X0) = (x0 + x1 * X1 + x2 * Y0 + x3 * (X1 * Y0)) - (x0 + x1 * X0 + x2 * Y0 + x3 * (X0 * Y0)) := by ring
    rw [e]
    rw [abs_le] at f0 f1 ⊢
    constructor <;> linarith
  have h1' : |x1 + x3 * Y0| ≤ 4 * B := by nlinarith [abs_nonneg (x1 + x3 * Y0)]
  have e2 : |x2 + x3 * X0| * |Y1 - Y0| ≤ 2 * B := by
    rw [← abs_mul]
    have e : (x2 + x3 * X0) * (Y1 - Y0) = (x0 + x1 * X0 + x2 * Y1 + x3 * (X0 * Y1)) - (x0 + x1 * X0 + x2 * Y0 + x3 * (X0 * Y0)) := by ring
    rw [e]
    rw [abs_le] at f0 f2 ⊢
    constructor <;> linarith
  have h2' : |x2 + x3 * X0| ≤ 4 * B := by nlinarith [abs_nonneg (x2 + x3 * X0)]
  have m1 : |x3 * Y0| ≤ 16 * B * N := by
    rw [abs_mul]; exact mul_le_mul h3 hY0 (abs_nonneg _) (by linarith)
  have m2 : |x3 * X0| ≤ 16 * B * N := by
    rw [abs_mul]; exact mul_le_mul h3 hX0 (abs_nonneg _) (by linarith)
  have h1 : |x1| ≤ 4 * B + 16 * B * N := by
    have := abs_sub (x1 + x3 * Y0) (x3 * Y0)
    rw [add_sub_cancel_right] at this; linarith
  have h2 : |x2| ≤ 4 * B + 16 * B * N := by
    have := abs_sub (x2 + x3 * X0) (x3 * X0)
    rw [add_sub_cancel_right] at this; linarith
  have p1 : |(x1 + x3 * Y0) * X0| ≤ 4 * B * N := by
    rw [abs_mul]; exact mul_le_mul h1' hX0 (abs_nonneg _) (by linarith)
  have p2 : |(x2 + x3 * X0) * Y0| ≤ 4 * B * N := by
    rw [abs_mul]; exact mul_le_mul h2' hY0 (abs_nonneg _) (by linarith)
  have p3 : |x3 * Y0 * X0| ≤ 16 * B * N * N := by
    rw [abs_mul]; exact mul_le_mul m1 hX0 (abs_nonneg _) (by positivity)
  have h0 : |x0| ≤ B + 8 * B * N + 16 * B * N * N := by
    have e : x0 = (x0 + x1 * X0 + x2 * Y0 + x3 * (X0 * Y0)) - (x1 + x3 * Y0) * X0 - (x2 + x3 * X0) * Y0 + x3 * Y0 * X0 := by ring
    rw [abs_le] at f0 p1 p2 p3 ⊢
    constructor <;> linarith
  have k1 := mul_le_mul_of_nonneg_left h1 hN0
  have k2 := mul_le_mul_of_nonneg_left h2 hN0
  have k3 := mul_le_mul_of_nonneg_left h3 (sq_nonneg N)
  have BN : B ≤ B * N := by nlinarith
  have BNN : B * N ≤ B * N * N := by nlinarith [mul_nonneg hB hN0]
  have e : 81 * N ^ 2 * B = 81 * (B * N * N) := by ring
  have e1 : N * (4 * B + 16 * B * N) = 4 * (B * N) + 16 * (B * N * N) := by ring
  have e3 : N ^ 2 * (16 * B) = 16 * (B * N * N) := by ring
  rw [e]
  rw [e1] at k1 k2
  rw [e3] at k3
  linarith

/-- A blend changes by at most the largest change of its values. -/
theorem blend_near {s t b0 b1 b2 b3 c0 c1 c2 c3 e : K} (hs : 0 ≤ s) (hs' : s ≤ 1) (ht : 0 ≤ t) (ht' : t ≤ 1)
    (h0 : |c0 - b0| ≤ e) (h1 : |c1 - b1| ≤ e) (h2 : |c2 - b2| ≤ e) (h3 : |c3 - b3| ≤ e) :
    |blend s t c0 c1 c2 c3 - blend s t b0 b1 b2 b3| ≤ e := by
  have : blend s t c0 c1 c2 c3 - blend s t b0 b1 b2 b3 = blend s t (c0 - b0) (c1 - b1) (c2 - b2) (c3 - b3) := by
    unfold blend; ring
  rw [this, abs_le]
  rw [abs_le] at h0 h1 h2 h3
  exact blend_between hs hs' ht ht' h0 h1 h2 h3

/-- The solved function near the blend, in coordinates counted in cells. -/
theorem interp_core {x0 x1 x2 x3 X0 X1 Y0 Y1 w0 w1 w2 w3 b0 b1 b2 b3 px py N : K} (hN : N = 2 ^ 14)
    (hX0 : |X0| ≤ N) (hY0 : |Y0| ≤ N)
    (hdx : 1 / 2 ≤ |X1 - X0|) (hdy : 1 / 2 ≤ |Y1 - Y0|)
    (hw0 : |w0 - X0 * Y0| ≤ N ^ 2 / 2 ^ 53) (hw1 : |w1 - X1 * Y0| ≤ N ^ 2 / 2 ^ 53)
    (hw2 : |w2 - X0 * Y1| ≤ N ^ 2 / 2 ^ 53) (hw3 : |w3 - X1 * Y1| ≤ N ^ 2 / 2 ^ 53)
    (hb0 : 0 ≤ b0 ∧ b0 ≤ 255) (hb1 : 0 ≤ b1 ∧ b1 ≤ 255) (hb2 : 0 ≤ b2 ∧ b2 ≤ 255) (hb3 : 0 ≤ b3 ∧ b3 ≤ 255)
    (r0 : |x0 + X0 * x1 + Y0 * x2 + w0 * x3 - b0| ≤ 2 * (|x0| + N * |x1| + N * |x2| + N ^ 2 * |x3|) / 2 ^ 48)
    (r1 : |x0 + X1 * x1 + Y0 * x2 + w1 * x3 - b1| ≤ 2 * (|x0| + N * |x1| + N * |x2| + N ^ 2 * |x3|) / 2 ^ 48)
    (r2 : |x0 + X0 * x1 + Y1 * x2 + w2 * x3 - b2| ≤ 2 * (|x0| + N * |x1| + N * |x2| + N ^ 2 * |x3|) / 2 ^ 48)
    (r3 : |x0 + X1 * x1 + Y1 * x2 + w3 * x3 - b3| ≤ 2 * (|x0| + N * |x1| + N * |x2| + N ^ 2 * |x3|) / 2 ^ 48)
    (hs : 0 ≤ (px - X0) / (X1 - X0)) (hs' : (px - X0) / (X1 - X0) ≤ 1)
    (ht : 0 ≤ (py - Y0) / (Y1 - Y0)) (ht' : (py - Y0) / (Y1 - Y0) ≤ 1) :
    |x0 + x1 * px + x2 * py + x3 * px * py - blend ((px - X0) / (X1 - X0)) ((py - Y0) / (Y1 - Y0)) b0 b1 b2 b3| ≤ 41 / 1000 ∧
    |x0| + N * |x1| + N * |x2| + N ^ 2 * |x3| ≤ 2 ^ 43 := by
  obtain ⟨M, hM⟩ : ∃ M, M = |x0| + N * |x1| + N * |x2| + N ^ 2 * |x3| := ⟨_, rfl⟩
  rw [← hM] at r0 r1 r2 r3 ⊢
  have hNp : 0 ≤ N := by rw [hN]; positivity
  have hM0 : 0 ≤ M := by rw [hM]; positivity
  have hx3 : N ^ 2 * |x3| ≤ M := by
    rw [hM]; nlinarith [abs_nonneg x0, mul_nonneg hNp (abs_nonneg x1), mul_nonneg hNp (abs_nonneg x2)]
  -- the errors of the products
  have perr : ∀ {w q : K}, |w - q| ≤ N ^ 2 / 2 ^ 53 → |w * x3 - q * x3| ≤ M / 2 ^ 53 := by
    intro w q h
    rw [← sub_mul, abs_mul]
    calc |w - q| * |x3| ≤ N ^ 2 / 2 ^ 53 * |x3| := mul_le_mul_of_nonneg_right h (abs_nonneg _)
      _ = N ^ 2 * |x3| / 2 ^ 53 := by ring
      _ ≤ M / 2 ^ 53 := div_le_div_of_nonneg_right hx3 (by positivity)
  have corner : ∀ {X Y w b : K}, |w - X * Y| ≤ N ^ 2 / 2 ^ 53 → |x0 + X * x1 + Y * x2 + w * x3 - b| ≤ 2 * M / 2 ^ 48 →
      |x0 + x1 * X + x2 * Y + x3 * (X * Y) - b| ≤ 65 * (M / 2 ^ 53) := by
    intro X Y w b hw hr
    have h1 := perr hw
    have e : 2 * M / 2 ^ 48 = 64 * (M / 2 ^ 53) := by ring
    rw [e] at hr
    have e' : x0 + x1 * X + x2 * Y + x3 * (X * Y) - b = (x0 + X * x1 + Y * x2 + w * x3 - b) - (w * x3 - X * Y * x3) := by ring
    rw [e']
    rw [abs_le] at h1 hr ⊢
    constructor <;> linarith
  have c0 := corner hw0 r0
  have c1 := corner hw1 r1
  have c2 := corner hw2 r2
  have c3 := corner hw3 r3
  have size : ∀ {v b : K}, 0 ≤ b ∧ b ≤ 255 → |v - b| ≤ 65 * (M / 2 ^ 53) → |v| ≤ 255 + 65 * (M / 2 ^ 53) := by
    intro v b hb h
    rw [abs_le] at h ⊢
    constructor <;> linarith
  have hu : 0 ≤ M / 2 ^ 53 := by positivity
  have hb := coeff_bound (N := N) (by rw [hN]; norm_num) (by linarith) hX0 hY0 hdx hdy (size hb0 c0) (size hb1 c1)
    (size hb2 c2) (size hb3 c3)
  rw [← hM] at hb
  have hMb : M ≤ 81 * 2 ^ 28 * (255 + 65 * (M / 2 ^ 53)) := by
    rw [hN] at hb; norm_num at hb ⊢; linarith
  have hM1 : M ≤ 81 * 2 ^ 28 * (2551 / 10) := by
    norm_num at hMb ⊢; linarith
  refine ⟨?_, ?_⟩
  · have hne : X1 - X0 ≠ 0 := by intro h; rw [h, abs_zero] at hdx; norm_num at hdx
    have hne' : Y1 - Y0 ≠ 0 := by intro h; rw [h, abs_zero] at hdy; norm_num at hdy
    have e := bilinear_eq (x0 := x0) (x1 := x1) (x2 := x2) (x3 := x3) (X := X0) (Y := Y0) (px := px) (py := py) hne hne'
      rfl rfl rfl rfl
    rw [e]
    simp only [add_sub_cancel]
    refine (blend_near hs hs' ht ht' c0 c1 c2 c3).trans ?_
    norm_num at hM1 ⊢; linarith
  · norm_num at hM1 ⊢; linarith

/-- A blend of costs changes little with its weights. -/
theorem blend_weights {s t s' t' e b0 b1 b2 b3 : K} (hs : |s - s'| ≤ e) (ht : |t - t'| ≤ e)
    (hs0 : 0 ≤ s') (hs1 : s' ≤ 1) (ht0 : 0 ≤ t) (ht1 : t ≤ 1)
    (hb0 : 0 ≤ b0 ∧ b0 ≤ 255) (hb1 : 0 ≤ b1 ∧ b1 ≤ 255) (hb2 : 0 ≤ b2 ∧ b2 ≤ 255) (hb3 : 0 ≤ b3 ∧ b3 ≤ 255) :
    |blend s t b0 b1 b2 b3 - blend s' t' b0 b1 b2 b3| ≤ 510 * e := by
  have he : 0 ≤ e := (abs_nonneg _).trans hs
  have slope : ∀ {w a b c d : K}, 0 ≤ w → w ≤ 1 → 0 ≤ a ∧ a ≤ 255 → 0 ≤ b ∧ b ≤ 255 → 0 ≤ c ∧ c ≤ 255 → 0 ≤ d ∧ d ≤ 255 →
      |(1 - w) * (b - a) + w * (d - c)| ≤ 255 := by
    intro w a b c d w0 w1 ha hb hc hd
    have v0 : 0 ≤ 1 - w := by linarith
    have k1 := mul_le_mul_of_nonneg_left (show b - a ≤ 255 by linarith) v0
    have k2 := mul_le_mul_of_nonneg_left (show -255 ≤ b - a by linarith) v0
    have k3 := mul_le_mul_of_nonneg_left (show d - c ≤ 255 by linarith) w0
    have k4 := mul_le_mul_of_nonneg_left (show -255 ≤ d - c by linarith) w0
    rw [abs_le]
    constructor <;> linarith
  have e1 : blend s t b0 b1 b2 b3 - blend s' t' b0 b1 b2 b3 =
      (s - s') * ((1 - t) * (b1 - b0) + t * (b3 - b2)) + (t - t') * ((1 - s') * (b2 - b0) + s' * (b3 - b1)) := by
    unfold blend; ring
  rw [e1]
  refine (abs_add_le _ _).trans ?_
  rw [abs_mul, abs_mul]
  have k1 := mul_le_mul hs (slope ht0 ht1 hb0 hb1 hb2 hb3) (abs_nonneg _) he
  have k2 := mul_le_mul ht (slope hs0 hs1 hb0 hb2 hb1 hb3) (abs_nonneg _) he
  linarith

/-- The error of evaluating the bilinear function. -/
theorem eval_err {rd : K → K} (hrd : DoublePrecision rd) {x : Fin 4 → K} {p : Vec K} {M : K}
    (hM : |x 0| + |x 1 * p.x| + |x 2 * p.y| + |x 3 * p.x * p.y| ≤ M) :
    |evalRd rd x p - (x 0 + x 1 * p.x + x 2 * p.y + x 3 * p.x * p.y)| ≤ 13 * (M / 2 ^ 53) := by
  have n0 := abs_nonneg (x 0); have n1 := abs_nonneg (x 1 * p.x); have n2 := abs_nonneg (x 2 * p.y)
  have n3 := abs_nonneg (x 3 * p.x * p.y)
  have hM0 : 0 ≤ M := by linarith
  have hu : 0 ≤ M / 2 ^ 53 := by positivity
  have a1 := rd_step1 (x := x 1 * p.x) (y := x 1 * p.x) (c := 0) hrd hM0 (by positivity) (by simp) (by linarith)
  have s1 := rd_step1 (x := x 0 + rd (x 1 * p.x)) (y := x 0 + x 1 * p.x) (c := 2) hrd hM0 (by norm_num)
    (by rw [add_sub_add_left_eq_sub]; linarith) (by have := abs_add_le (x 0) (x 1 * p.x); linarith)
  have a2 := rd_step1 (x := x 2 * p.y) (y := x 2 * p.y) (c := 0) hrd hM0 (by positivity) (by simp) (by linarith)
  have s2 := rd_step1 (x := rd (x 0 + rd (x 1 * p.x)) + rd (x 2 * p.y)) (y := x 0 + x 1 * p.x + x 2 * p.y) (c := 6) hrd hM0
    (by norm_num) (by rw [abs_le] at s1 a2 ⊢; constructor <;> linarith)
    (by have := abs_add_three (x 0) (x 1 * p.x) (x 2 * p.y); linarith)
  have a3 : |rd (x 3 * p.x) * p.y - x 3 * p.x * p.y| ≤ 1 * (M / 2 ^ 53) := by
    rw [← sub_mul, abs_mul]
    have := mul_le_mul_of_nonneg_right (hrd (x 3 * p.x)) (abs_nonneg p.y)
    have e : |x 3 * p.x| / 2 ^ 53 * |p.y| = |x 3 * p.x * p.y| / 2 ^ 53 := by rw [abs_mul (x 3 * p.x)]; ring
    have : |x 3 * p.x * p.y| / 2 ^ 53 ≤ M / 2 ^ 53 := div_le_div_of_nonneg_right (by linarith) (by positivity)
    linarith
  have a3' := rd_step1 (x := rd (x 3 * p.x) * p.y) (y := x 3 * p.x * p.y) (c := 1) hrd hM0 (by norm_num) a3 (by linarith)
  have s3 := rd_step1 (x := rd (rd (x 0 + rd (x 1 * p.x)) + rd (x 2 * p.y)) + rd (rd (x 3 * p.x) * p.y))
    (y := x 0 + x 1 * p.x + x 2 * p.y + x 3 * p.x * p.y) (c := 11) hrd hM0 (by norm_num)
    (by rw [abs_le] at s2 a3' ⊢; constructor <;> linarith)
    (by
      have h1 := abs_add_three (x 0) (x 1 * p.x) (x 2 * p.y)
      have h2 := abs_add_le (x 0 + x 1 * p.x + x 2 * p.y) (x 3 * p.x * p.y)
      linarith)
  unfold evalRd
  linarith

/-- The computed value is near the blend. -/
theorem interp_value {rd : K → K} (hrd : DoublePrecision rd) {r : K} (hr : 0 < r) {solve : Solver K} (hsolve : SolveStable rd r solve)
    {X0 X1 Y0 Y1 b0 b1 b2 b3 : K} {p : Vec K}
    (hX0 : |X0| ≤ 2 ^ 14 * r) (hX1 : |X1| ≤ 2 ^ 14 * r) (hY0 : |Y0| ≤ 2 ^ 14 * r) (hY1 : |Y1| ≤ 2 ^ 14 * r)
    (hpx : |p.x| ≤ 2 ^ 14 * r) (hpy : |p.y| ≤ 2 ^ 14 * r)
    (hdx : r / 2 ≤ |X1 - X0|) (hdy : r / 2 ≤ |Y1 - Y0|)
    (hb0 : 0 ≤ b0 ∧ b0 ≤ 255) (hb1 : 0 ≤ b1 ∧ b1 ≤ 255) (hb2 : 0 ≤ b2 ∧ b2 ≤ 255) (hb3 : 0 ≤ b3 ∧ b3 ≤ 255)
    (hs : 0 ≤ (p.x - X0) / (X1 - X0)) (hs' : (p.x - X0) / (X1 - X0) ≤ 1)
    (ht : 0 ≤ (p.y - Y0) / (Y1 - Y0)) (ht' : (p.y - Y0) / (Y1 - Y0) ≤ 1) :
    |evalRd rd (solve ![rowRd rd ⟨X0, Y0⟩, rowRd rd ⟨X1, Y0⟩, rowRd rd ⟨X0, Y1⟩, rowRd rd ⟨X1, Y1⟩] ![b0, b1, b2, b3]) p -
      blend ((p.x - X0) / (X1 - X0)) ((p.y - Y0) / (Y1 - Y0)) b0 b1 b2 b3| ≤ 54 / 1000 := by
  have res := hsolve _ ![b0, b1, b2, b3] ⟨X0, X1, Y0, Y1, rfl, ⟨hX0, hX1, hY0, hY1⟩, hdx, hdy⟩
  obtain ⟨x, hx⟩ : ∃ x, x = solve ![rowRd rd ⟨X0, Y0⟩, rowRd rd ⟨X1, Y0⟩, rowRd rd ⟨X0, Y1⟩, rowRd rd ⟨X1, Y1⟩] ![b0, b1, b2, b3] :=
    ⟨_, rfl⟩
  rw [← hx] at res ⊢
  obtain ⟨N, hN⟩ : ∃ N : K, N = 2 ^ 14 := ⟨_, rfl⟩
  rw [← hN] at hX0 hX1 hY0 hY1 hpx hpy
  have hN0 : 0 ≤ N := by rw [hN]; positivity
  have hNr : 0 ≤ N * r := mul_nonneg hN0 hr.le
  -- the products
  have prod : ∀ {a b : K}, |a| ≤ N * r → |b| ≤ N * r → |a * b| ≤ N ^ 2 * r ^ 2 := by
    intro a b ha hb
    rw [abs_mul]
    calc |a| * |b| ≤ N * r * (N * r) := mul_le_mul ha hb (abs_nonneg _) hNr
      _ = _ := by ring
  have prodRd : ∀ {a b : K}, |a| ≤ N * r → |b| ≤ N * r → |rd (a * b) - a * b| ≤ N ^ 2 * r ^ 2 / 2 ^ 53 := fun ha hb =>
    (hrd _).trans (div_le_div_of_nonneg_right (prod ha hb) (by positivity))
  have hq0 : 0 ≤ N ^ 2 * r ^ 2 := by positivity
  have prodRd' : ∀ {a b : K}, |a| ≤ N * r → |b| ≤ N * r → |rd (a * b)| ≤ 2 * (N ^ 2 * r ^ 2) := by
    intro a b ha hb
    have h1 := prodRd ha hb
    have h2 := prod ha hb
    have h3 : N ^ 2 * r ^ 2 / 2 ^ 53 ≤ N ^ 2 * r ^ 2 := div_le_self hq0 (by norm_num)
    rw [abs_le] at h1 h2 ⊢
    constructor <;> linarith
  -- the residual in cells
  obtain ⟨M, hM⟩ : ∃ M, M = |x 0| + N * |x 1 * r| + N * |x 2 * r| + N ^ 2 * |x 3 * r ^ 2| := ⟨_, rfl⟩
  have bound : (colMax ![rowRd rd ⟨X0, Y0⟩, rowRd rd ⟨X1, Y0⟩, rowRd rd ⟨X0, Y1⟩, rowRd rd ⟨X1, Y1⟩] 0 * |x 0| +
      colMax ![rowRd rd ⟨X0, Y0⟩, rowRd rd ⟨X1, Y0⟩, rowRd rd ⟨X0, Y1⟩, rowRd rd ⟨X1, Y1⟩] 1 * |x 1| +
      colMax ![rowRd rd ⟨X0, Y0⟩, rowRd rd ⟨X1, Y0⟩, rowRd rd ⟨X0, Y1⟩, rowRd rd ⟨X1, Y1⟩] 2 * |x 2| +
      colMax ![rowRd rd ⟨X0, Y0⟩, rowRd rd ⟨X1, Y0⟩, rowRd rd ⟨X0, Y1⟩, rowRd rd ⟨X1, Y1⟩] 3 * |x 3|) / 2 ^ 48 ≤ 2 * M / 2 ^ 48 := by
    refine div_le_div_of_nonneg_right ?_ (by positivity)
    have m0 : colMax ![rowRd rd ⟨X0, Y0⟩, rowRd rd ⟨X1, Y0⟩, rowRd rd ⟨X0, Y1⟩, rowRd rd ⟨X1, Y1⟩] 0 = 1 := by
      show max (max |(1 : K)| |1|) (max |1| |1|) = 1
      simp
    have m1 : colMax ![rowRd rd ⟨X0, Y0⟩, rowRd rd ⟨X1, Y0⟩, rowRd rd ⟨X0, Y1⟩, rowRd rd ⟨X1, Y1⟩] 1 ≤ N * r :=
      max_le (max_le hX0 hX1) (max_le hX0 hX1)
    have m2 : colMax ![rowRd rd ⟨X0, Y0⟩, rowRd rd ⟨X1, Y0⟩, rowRd rd ⟨X0, Y1⟩, rowRd rd ⟨X1, Y1⟩] 2 ≤ N * r :=
      max_le (max_le hY0 hY0) (max_le hY1 hY1)
    have m3 : colMax ![rowRd rd ⟨X0, Y0⟩, rowRd rd ⟨X1, Y0⟩, rowRd rd ⟨X0, Y1⟩, rowRd rd ⟨X1, Y1⟩] 3 ≤ 2 * (N ^ 2 * r ^ 2) :=
      max_le (max_le (prodRd' hX0 hY0) (prodRd' hX1 hY0)) (max_le (prodRd' hX0 hY1) (prodRd' hX1 hY1))
    have k1 := mul_le_mul_of_nonneg_right m1 (abs_nonneg (x 1))
    have k2 := mul_le_mul_of_nonneg_right m2 (abs_nonneg (x 2))
    have k3 := mul_le_mul_of_nonneg_right m3 (abs_nonneg (x 3))
    rw [m0, hM, abs_mul, abs_mul, abs_mul, abs_of_pos hr, abs_of_pos (by positivity : 0 < r ^ 2)]
    have e1 := mul_nonneg hNr (abs_nonneg (x 1))
    have e2 := mul_nonneg hNr (abs_nonneg (x 2))
    have e0 := abs_nonneg (x 0)
    calc _ ≤ |x 0| + N * r * |x 1| + N * r * |x 2| + 2 * (N ^ 2 * r ^ 2) * |x 3| := by linarith
      _ ≤ 2 * |x 0| + 2 * (N * r * |x 1|) + 2 * (N * r * |x 2|) + 2 * (N ^ 2 * r ^ 2) * |x 3| := by linarith
      _ = _ := by ring
  have sc : ∀ {a : K}, |a| ≤ N * r → |a / r| ≤ N := by
    intro a ha; rw [abs_div, abs_of_pos hr, div_le_iff₀ hr]; exact ha
  have scw : ∀ {a b : K}, |a| ≤ N * r → |b| ≤ N * r → |rd (a * b) / r ^ 2 - a / r * (b / r)| ≤ N ^ 2 / 2 ^ 53 := by
    intro a b ha hb
    have e : rd (a * b) / r ^ 2 - a / r * (b / r) = (rd (a * b) - a * b) / r ^ 2 := by field_simp
    rw [e, abs_div, abs_of_pos (by positivity : 0 < r ^ 2), div_le_iff₀ (by positivity)]
    have := prodRd ha hb
    calc _ ≤ _ := this
      _ = _ := by ring
  have scd : ∀ {a b : K}, r / 2 ≤ |a - b| → 1 / 2 ≤ |a / r - b / r| := by
    intro a b h
    rw [← sub_div, abs_div, abs_of_pos hr, le_div_iff₀ hr]; linarith
  have frac : ∀ (q a b : K), (q / r - a / r) / (b / r - a / r) = (q - a) / (b - a) := by
    intro q a b
    rw [← sub_div, ← sub_div, div_div_div_cancel_right₀ hr.ne']
  have row : ∀ {X Y b : K}, |1 * x 0 + X * x 1 + Y * x 2 + rd (X * Y) * x 3 - b| ≤ 2 * M / 2 ^ 48 →
      |x 0 + X / r * (x 1 * r) + Y / r * (x 2 * r) + rd (X * Y) / r ^ 2 * (x 3 * r ^ 2) - b| ≤
        2 * (|x 0| + N * |x 1 * r| + N * |x 2 * r| + N ^ 2 * |x 3 * r ^ 2|) / 2 ^ 48 := by
    intro X Y b h
    rw [← hM]
    have e : x 0 + X / r * (x 1 * r) + Y / r * (x 2 * r) + rd (X * Y) / r ^ 2 * (x 3 * r ^ 2) - b =
        1 * x 0 + X * x 1 + Y * x 2 + rd (X * Y) * x 3 - b := by field_simp
    rw [e]; exact h
  have core := interp_core (x0 := x 0) (x1 := x 1 * r) (x2 := x 2 * r) (x3 := x 3 * r ^ 2) (X0 := X0 / r) (X1 := X1 / r)
    (Y0 := Y0 / r) (Y1 := Y1 / r) (px := p.x / r) (py := p.y / r) hN (sc hX0) (sc hY0) (scd hdx) (scd hdy) (scw hX0 hY0)
    (scw hX1 hY0) (scw hX0 hY1) (scw hX1 hY1) hb0 hb1 hb2 hb3
    (row ((res 0).trans bound)) (row ((res 1).trans bound)) (row ((res 2).trans bound)) (row ((res 3).trans bound))
    (by rw [frac]; exact hs) (by rw [frac]; exact hs') (by rw [frac]; exact ht) (by rw [frac]; exact ht')
  rw [frac, frac] at core
  have e : x 0 + x 1 * r * (p.x / r) + x 2 * r * (p.y / r) + x 3 * r ^ 2 * (p.x / r) * (p.y / r) =
      x 0 + x 1 * p.x + x 2 * p.y + x 3 * p.x * p.y := by field_simp
  rw [e] at core
  obtain ⟨core, hM43⟩ := core
  have ev := eval_err (M := 2 ^ 43) hrd (x := x) (p := p) (by
    refine le_trans ?_ hM43
    have k1 := mul_le_mul_of_nonneg_right hpx (abs_nonneg (x 1))
    have k2 := mul_le_mul_of_nonneg_right hpy (abs_nonneg (x 2))
    have k3 := mul_le_mul_of_nonneg_right (prod hpx hpy) (abs_nonneg (x 3))
    rw [abs_mul (x 1) r, abs_mul (x 2) r, abs_mul (x 3), abs_of_pos hr, abs_of_pos (by positivity : 0 < r ^ 2)]
    rw [abs_mul (x 1), abs_mul (x 2), mul_assoc (x 3), abs_mul (x 3)]
    linarith)
  rw [abs_le] at core ev ⊢
  norm_num at ev ⊢
  constructor <;> linarith

end CostMapModel

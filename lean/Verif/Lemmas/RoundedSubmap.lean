import Verif.Lemmas.Rounded
import Verif.Spec.RoundedSubmap

/-!
# Submaps in rounded arithmetic: one axis

The clipped corners need tight error bounds: grid_map's guard margin is only some ten units.
-/

set_option linter.unusedSectionVars false

namespace CostMapModel
open CostMap
variable {K : Type} [Field K] [LinearOrder K] [IsStrictOrderedRing K] [FloorRing K]

/-- One rounded operation, tight: the error grows by `(b + r) / 2^53` for numbers below `b`. -/
theorem rd_tight {rd : K → K} (hrd : DoublePrecision rd) {x y c b r : K} (hx : |x - y| ≤ c / 2 ^ 53) (hy : |y| ≤ b)
    (hc : c / 2 ^ 53 ≤ r) : |rd x - y| ≤ (c + b + r) / 2 ^ 53 := by
  have h1 := hrd x
  have h2 : |x| ≤ |x - y| + |y| := by simpa using abs_add_le (x - y) y
  have h3 : |x| / 2 ^ 53 ≤ (b + r) / 2 ^ 53 := div_le_div_of_nonneg_right (by linarith) (by positivity)
  have h4 : |rd x - y| ≤ |rd x - x| + |x - y| := by
    have := abs_add_le (rd x - x) (x - y)
    rwa [sub_add_sub_cancel] at this
  rw [add_div] at h3
  rw [add_div, add_div]
  linarith

/-- Rounding keeps the sign. -/
theorem rd_nonpos_iff {rd : K → K} (hrd : DoublePrecision rd) {x : K} : rd x ≤ 0 ↔ x ≤ 0 := by
  have h := hrd x
  have hlt : x ≠ 0 → |x| / 2 ^ 53 < |x| := fun hx => div_lt_self (abs_pos.mpr hx) (by norm_num)
  constructor
  · intro h0
    by_contra hn
    push Not at hn
    have := hlt hn.ne'
    rw [abs_of_pos hn] at this h
    rw [abs_le] at h
    linarith
  · intro h0
    rcases h0.lt_or_eq with h1 | h1
    · have := hlt h1.ne
      rw [abs_of_neg h1] at this h
      rw [abs_le] at h
      linarith
    · subst h1
      simp only [sub_zero, abs_zero, zero_div] at h
      exact (abs_nonpos_iff.mp h).le

/-- The guard margin. -/
theorem guard_err {rd : K → K} (hrd : DoublePrecision rd) {p r : K} (hM : max 1 |p| ≤ 2 ^ 46 * r) :
    |guardRd rd p - 20 * max 1 |p| / 2 ^ 53| ≤ r / 2 ^ 53 := by
  have e : (10 : K) * dblEpsilon = 20 / 2 ^ 53 := by unfold dblEpsilon; norm_num
  have h0 := hrd (20 / 2 ^ 53)
  rw [abs_of_nonneg (show (0 : K) ≤ 20 / 2 ^ 53 by positivity)] at h0
  unfold guardRd
  rw [e]
  by_cases hp : 1 < |p|
  · rw [if_pos hp, max_eq_right hp.le]
    rw [max_eq_right hp.le] at hM
    have h1 := hrd (rd (20 / 2 ^ 53) * |p|)
    generalize rd (20 / 2 ^ 53) = g at *
    rw [abs_le] at h0
    have g0 : 0 ≤ g := by
      have : (20 : K) / 2 ^ 53 / 2 ^ 53 ≤ 20 / 2 ^ 53 := div_le_self (by positivity) (by norm_num)
      linarith
    have g1 : g ≤ 21 / 2 ^ 53 := by
      have : (20 : K) / 2 ^ 53 / 2 ^ 53 ≤ 1 / 2 ^ 53 := by norm_num
      have e21 : (21 : K) / 2 ^ 53 = 20 / 2 ^ 53 + 1 / 2 ^ 53 := by ring
      linarith
    have ap := abs_nonneg p
    rw [abs_of_nonneg (mul_nonneg g0 ap)] at h1
    have k1 : g * |p| / 2 ^ 53 ≤ 21 * |p| / 2 ^ 53 / 2 ^ 53 := by
      apply div_le_div_of_nonneg_right _ (by positivity)
      calc g * |p| ≤ 21 / 2 ^ 53 * |p| := mul_le_mul_of_nonneg_right g1 ap
        _ = _ := by ring
    have k2 : |g * |p| - 20 * |p| / 2 ^ 53| ≤ 20 * |p| / 2 ^ 53 / 2 ^ 53 := by
      have : g * |p| - 20 * |p| / 2 ^ 53 = (g - 20 / 2 ^ 53) * |p| := by ring
      rw [this, abs_mul, abs_abs]
      calc |g - 20 / 2 ^ 53| * |p| ≤ 20 / 2 ^ 53 / 2 ^ 53 * |p| :=
            mul_le_mul_of_nonneg_right (abs_le.mpr h0) ap
        _ = _ := by ring
    have k3 : 41 * |p| / 2 ^ 53 / 2 ^ 53 ≤ r / 2 ^ 53 := by
      apply div_le_div_of_nonneg_right _ (by positivity)
      rw [div_le_iff₀ (by positivity)]
      nlinarith
    have k4 : 41 * |p| / 2 ^ 53 / 2 ^ 53 = 20 * |p| / 2 ^ 53 / 2 ^ 53 + 21 * |p| / 2 ^ 53 / 2 ^ 53 := by ring
    rw [abs_le] at h1 k2 ⊢
    constructor <;> linarith
  · rw [if_neg hp]
    push Not at hp
    rw [max_eq_left hp] at hM ⊢
    refine le_trans (by simpa using h0) ?_
    apply div_le_div_of_nonneg_right _ (by positivity)
    rw [div_le_iff₀ (by positivity)]
    nlinarith

namespace Axis
variable {rd : K → K} {n : Int} {pos len r T : K}

theorem len_tight (h : Axis rd n pos len r T) (hrd : DoublePrecision rd) : |len - n * r| ≤ n * r / 2 ^ 53 := by
  have := hrd ((n : K) * r)
  rw [abs_of_nonneg (show 0 ≤ (n : K) * r by have := h.nr_pos; have := h.r_pos; linarith)] at this
  rw [h.len]; exact this

theorem unit_tight (h : Axis rd n pos len r T) {c : K} (hc : c ≤ 8 * T) : c / 2 ^ 53 ≤ r / 8 := by
  have := h.tame
  rw [div_le_iff₀ (by positivity)]
  nlinarith

theorem origin_tight (h : Axis rd n pos len r T) (hrd : DoublePrecision rd) :
    |toOriginRd rd len - n * r / 2| ≤ (n * r + r) / 2 ^ 53 := by
  have g1 := h.nr_pos; have g2 := h.r_pos; have g3 := h.pos_le; have g4 := abs_nonneg pos
  have hl := h.len_tight hrd
  have := rd_tight hrd (x := 1 / 2 * len) (y := n * r / 2) (c := n * r / 2) (b := n * r / 2) (r := r)
    (by
      have e : 1 / 2 * len - n * r / 2 = 1 / 2 * (len - n * r) := by ring
      rw [e, abs_mul, abs_of_pos (by norm_num : (0 : K) < 1 / 2)]
      calc 1 / 2 * |len - n * r| ≤ 1 / 2 * (n * r / 2 ^ 53) := by linarith
        _ = _ := by ring)
    (by rw [abs_of_nonneg (by linarith)])
    (by have := h.unit_tight (c := n * r / 2) (by linarith); linarith)
  unfold toOriginRd
  refine this.trans (le_of_eq ?_)
  ring

/-- The distance from the upper border, tight. -/
theorem border_tight (h : Axis rd n pos len r T) (hrd : DoublePrecision rd) {p y c b1 b2 : K} (hp : |p - y| ≤ c / 2 ^ 53)
    (h1 : |y - pos| ≤ b1) (h2 : |pos + n * r / 2 - y| ≤ b2) (hcb : c + b1 + n * r + 2 * r ≤ 8 * T) :
    |fromBorderRd rd p len pos - (pos + n * r / 2 - y)| ≤ (c + b1 + n * r + b2 + 3 * r) / 2 ^ 53 := by
  have g1 := h.nr_pos; have g2 := h.r_pos
  have ho := h.origin_tight hrd
  have b0 := (abs_nonneg _).trans h1
  have s1 := rd_tight hrd (x := p - pos) (y := y - pos) (c := c) (r := r) (by rwa [sub_sub_sub_cancel_right]) h1
    (by have := h.unit_tight (c := c) (by linarith); linarith)
  have s2 := rd_tight hrd (x := rd (p - pos) - toOriginRd rd len) (y := -(pos + n * r / 2 - y)) (c := c + b1 + n * r + 2 * r)
    (b := b2) (r := r)
    (by
      have e : rd (p - pos) - toOriginRd rd len - -(pos + n * r / 2 - y) =
        (rd (p - pos) - (y - pos)) - (toOriginRd rd len - n * r / 2) := by ring
      rw [e]
      refine (abs_sub _ _).trans ((add_le_add s1 ho).trans (le_of_eq ?_))
      ring)
    (by rwa [abs_neg])
    (by have := h.unit_tight hcb; linarith)
  have e : fromBorderRd rd p len pos - (pos + n * r / 2 - y) =
      -(rd (rd (p - pos) - toOriginRd rd len) - -(pos + n * r / 2 - y)) := by unfold fromBorderRd; ring
  rw [e, abs_neg]
  refine s2.trans (le_of_eq ?_)
  ring

/-- The quotient that is truncated to the cell number, times the resolution, tight. -/
theorem quotient_tight (h : Axis rd n pos len r T) (hrd : DoublePrecision rd) {p y c b2 b3 : K} (hp : |p - y| ≤ c / 2 ^ 53)
    (h2 : |pos + n * r / 2 - y| ≤ b2) (h3 : |y - n * r / 2| ≤ b3)
    (hcb : c + n * r + b3 + b2 + 3 * r ≤ 8 * T) :
    |rd (rd (rd (p - toOriginRd rd len) - pos) / r) * r + (pos + n * r / 2 - y)| ≤
      (c + n * r + b3 + 2 * b2 + 4 * r) / 2 ^ 53 := by
  have g1 := h.nr_pos; have g2 := h.r_pos
  have ho := h.origin_tight hrd
  have b0 := (abs_nonneg _).trans h2
  have b0' := (abs_nonneg _).trans h3
  have s1 := rd_tight hrd (x := p - toOriginRd rd len) (y := y - n * r / 2) (c := c + n * r + r) (r := r)
    (by
      have e : p - toOriginRd rd len - (y - n * r / 2) = (p - y) - (toOriginRd rd len - n * r / 2) := by ring
      rw [e]
      refine (abs_sub _ _).trans ((add_le_add hp ho).trans (le_of_eq ?_))
      ring) h3
    (by have := h.unit_tight (c := c + n * r + r) (by linarith); linarith)
  have s2 := rd_tight hrd (x := rd (p - toOriginRd rd len) - pos) (y := -(pos + n * r / 2 - y)) (c := c + n * r + b3 + 2 * r)
    (b := b2) (r := r)
    (by
      have e : rd (p - toOriginRd rd len) - pos - -(pos + n * r / 2 - y) =
        rd (p - toOriginRd rd len) - (y - n * r / 2) := by ring
      rw [e]
      refine s1.trans (le_of_eq ?_)
      ring)
    (by rwa [abs_neg])
    (by have := h.unit_tight (c := c + n * r + b3 + 2 * r) (by linarith); linarith)
  generalize rd (rd (p - toOriginRd rd len) - pos) = v at *
  have s3 := hrd (v / r)
  have k : |v| ≤ b2 + r := by
    have h4 : |v| ≤ |v - -(pos + n * r / 2 - y)| + |-(pos + n * r / 2 - y)| := by
      simpa using abs_add_le (v - -(pos + n * r / 2 - y)) (-(pos + n * r / 2 - y))
    rw [abs_neg] at h4
    have := h.unit_tight (c := c + n * r + b3 + 2 * r + b2 + r) (by linarith)
    linarith
  have s4 : |rd (v / r) * r - v| ≤ (b2 + r) / 2 ^ 53 := by
    have e : rd (v / r) * r - v = (rd (v / r) - v / r) * r := by field_simp
    rw [e, abs_mul, abs_of_pos g2]
    calc |rd (v / r) - v / r| * r ≤ |v / r| / 2 ^ 53 * r := mul_le_mul_of_nonneg_right s3 g2.le
      _ = |v| / 2 ^ 53 := by rw [abs_div, abs_of_pos g2]; field_simp
      _ ≤ _ := div_le_div_of_nonneg_right k (by positivity)
  have e : rd (v / r) * r + (pos + n * r / 2 - y) = (rd (v / r) * r - v) + (v - -(pos + n * r / 2 - y)) := by ring
  rw [e]
  refine (abs_add_le _ _).trans ((add_le_add s4 s2).trans (le_of_eq ?_))
  ring

/-- The size of the guard margin for a corner that is cut. -/
theorem guard_size (h : Axis rd n pos len r T) (hrd : DoublePrecision rd) {p : K}
    (hG : |pos| + 2 * ((n + 1) * r) ≤ 5 * max 1 |p|) (hM : max 1 |p| ≤ 2 ^ 46 * r) :
    (4 * |pos| + 8 * (n * r) + 7 * r) / 2 ^ 53 ≤ guardRd rd p ∧ guardRd rd p ≤ r / 6 := by
  have hg := guard_err hrd hM
  rw [abs_le] at hg
  have k1 : (4 * |pos| + 8 * (n * r) + 8 * r) / 2 ^ 53 ≤ 20 * max 1 |p| / 2 ^ 53 :=
    div_le_div_of_nonneg_right (by linarith) (by positivity)
  have k2 : 20 * max 1 |p| / 2 ^ 53 ≤ 5 / 32 * r := by
    rw [div_le_iff₀ (by positivity)]; nlinarith
  have k3 : (4 * |pos| + 8 * (n * r) + 8 * r) / 2 ^ 53 = (4 * |pos| + 8 * (n * r) + 7 * r) / 2 ^ 53 + r / 2 ^ 53 := by ring
  have g2 := h.r_pos
  have k4 : r / 2 ^ 53 ≤ r / 1000 := div_le_div_of_nonneg_left g2.le (by norm_num) (by norm_num)
  constructor <;> linarith

/-- A corner below the map is cut to the last cell. -/
theorem cut_low (h : Axis rd n pos len r T) (hrd : DoublePrecision rd) {p : K}
    (hp : p ≤ pos - n * r / 2 - 32 * (T / 2 ^ 53)) (hG : |pos| + 2 * ((n + 1) * r) ≤ 5 * max 1 |p|)
    (hM : max 1 |p| ≤ 2 ^ 46 * r) :
    0 ≤ fromBorderRd rd (boundPosition1Rd rd p len pos) len pos ∧
    fromBorderRd rd (boundPosition1Rd rd p len pos) len pos < len ∧
    cellRd rd (boundPosition1Rd rd p len pos) len pos r = n - 1 := by
  have g1 := h.nr_pos; have g2 := h.r_pos; have g3 := h.pos_le; have g4 := abs_nonneg pos
  have p1 := neg_abs_le pos
  have p2 := le_abs_self pos
  have hl := h.len_tight hrd
  have ho := h.origin_tight hrd
  obtain ⟨ga, gb⟩ := h.guard_size hrd hG hM
  -- the test
  have htest : rd (rd (p - pos) + toOriginRd rd len) ≤ 0 := by
    rw [rd_nonpos_iff hrd]
    have e := hrd (p - pos)
    have hu := h.unit_nonneg
    rw [abs_of_nonpos (show p - pos ≤ 0 by linarith), abs_le] at e
    rw [abs_le] at ho
    have e1 : (n * r / 2 + 32 * (T / 2 ^ 53)) * (1 - 1 / 2 ^ 53) ≤ -(p - pos) * (1 - 1 / 2 ^ 53) :=
      mul_le_mul_of_nonneg_right (by linarith) (by norm_num)
    have e2 : -(p - pos) * (1 - 1 / 2 ^ 53) = -(p - pos) - -(p - pos) / 2 ^ 53 := by ring
    have e3 : (n * r / 2 + 32 * (T / 2 ^ 53)) * (1 - 1 / 2 ^ 53) =
        n * r / 2 + 32 * (T / 2 ^ 53) - (n * r / 2) / 2 ^ 53 - 32 * (T / 2 ^ 53 / 2 ^ 53) := by ring
    have e4 : T / 2 ^ 53 / 2 ^ 53 ≤ T / 2 ^ 53 / 32 := div_le_div_of_nonneg_left hu (by norm_num) (by norm_num)
    have e5 : (n * r / 2) / 2 ^ 53 ≤ T / 2 ^ 53 := div_le_div_of_nonneg_right (by linarith) (by positivity)
    have e6 : (n * r + r) / 2 ^ 53 ≤ T / 2 ^ 53 := div_le_div_of_nonneg_right (by linarith) (by positivity)
    linarith
  have hb : boundPosition1Rd rd p len pos = rd (rd (guardRd rd p + pos) - toOriginRd rd len) := by
    unfold boundPosition1Rd
    simp only [htest, if_true]
  rw [hb]
  generalize guardRd rd p = g at *
  have g0 : 0 ≤ g := le_trans (div_nonneg (by linarith) (by positivity)) ga
  have s1 := rd_tight hrd (x := g + pos) (y := g + pos) (c := 0) (b := |pos| + r / 6) (r := r / 6) (by simp)
    ((abs_add_le _ _).trans (by rw [abs_of_nonneg g0]; linarith)) (by linarith)
  have s2 := rd_tight hrd (x := rd (g + pos) - toOriginRd rd len) (y := pos - n * r / 2 + g)
    (c := |pos| + n * r + 4 / 3 * r) (b := |pos| + n * r / 2 + r / 6) (r := r)
    (by
      have e : rd (g + pos) - toOriginRd rd len - (pos - n * r / 2 + g) =
        (rd (g + pos) - (g + pos)) - (toOriginRd rd len - n * r / 2) := by ring
      rw [e]
      refine (abs_sub _ _).trans ((add_le_add s1 ho).trans (le_of_eq ?_))
      ring)
    (by rw [abs_le]; constructor <;> linarith)
    (by have := h.unit_tight (c := |pos| + n * r + 4 / 3 * r) (by linarith); linarith)
  generalize rd (rd (g + pos) - toOriginRd rd len) = P at *
  have hP : |P - (pos - n * r / 2 + g)| ≤ (2 * |pos| + 3 / 2 * (n * r) + 5 / 2 * r) / 2 ^ 53 := s2.trans (le_of_eq (by ring))
  have hD : |pos + n * r / 2 - (pos - n * r / 2 + g)| ≤ n * r := by rw [abs_le]; constructor <;> linarith
  have t1 := h.border_tight hrd hP (b1 := n * r / 2) (by rw [abs_le]; constructor <;> linarith) hD (by linarith)
  have t2 := h.quotient_tight hrd hP hD (b3 := |pos| + n * r) (by rw [abs_le]; constructor <;> linarith)
    (by linarith)
  have hc : cellRd rd P len pos r = -truncToInt (rd (rd (rd (P - toOriginRd rd len) - pos) / r)) := rfl
  rw [hc]
  generalize rd (rd (rd (P - toOriginRd rd len) - pos) / r) = q at *
  generalize fromBorderRd rd P len pos = t at *
  have u1 := h.unit_tight (c := 2 * |pos| + 4 * (n * r) + 11 / 2 * r) (by linarith)
  have u2 := h.unit_tight (c := 3 * |pos| + 11 / 2 * (n * r) + 13 / 2 * r) (by linarith)
  rw [show 2 * |pos| + 3 / 2 * (n * r) + 5 / 2 * r + n * r / 2 + n * r + n * r + 3 * r =
    2 * |pos| + 4 * (n * r) + 11 / 2 * r by ring] at t1
  rw [show 2 * |pos| + 3 / 2 * (n * r) + 5 / 2 * r + n * r + (|pos| + n * r) + 2 * (n * r) + 4 * r =
    3 * |pos| + 11 / 2 * (n * r) + 13 / 2 * r by ring] at t2
  have v1 : (2 * |pos| + 4 * (n * r) + 11 / 2 * r) / 2 ^ 53 + n * r / 2 ^ 53 < (4 * |pos| + 8 * (n * r) + 7 * r) / 2 ^ 53 := by
    rw [← add_div]
    exact div_lt_div_of_pos_right (by linarith) (by positivity)
  have v2 : (3 * |pos| + 11 / 2 * (n * r) + 13 / 2 * r) / 2 ^ 53 < (4 * |pos| + 8 * (n * r) + 7 * r) / 2 ^ 53 :=
    div_lt_div_of_pos_right (by linarith) (by positivity)
  rw [abs_le] at t1 t2 hl
  refine ⟨by linarith, by linarith, ?_⟩
  have q1 : -(n : K) < q := by
    have : -(n : K) * r < q * r := by linarith
    exact lt_of_mul_lt_mul_right this g2.le
  have q2 : q ≤ -((n : K) - 1) := by
    have : q * r ≤ -((n : K) - 1) * r := by linarith
    exact le_of_mul_le_mul_right this g2
  have hn := h.n_pos'
  rw [neg_truncToInt_of_nonpos (by linarith), Int.floor_eq_iff]
  push_cast
  constructor <;> linarith

/-- The test for a corner above the map. -/
theorem high_test (h : Axis rd n pos len r T) (hrd : DoublePrecision rd) {p : K}
    (hp : pos + n * r / 2 + 32 * (T / 2 ^ 53) ≤ p) : len ≤ rd (rd (p - pos) + toOriginRd rd len) := by
  have g1 := h.nr_pos; have g2 := h.r_pos; have g3 := h.pos_le; have g4 := abs_nonneg pos
  have hl := h.len_tight hrd
  have ho := h.origin_tight hrd
  have hu := h.unit_nonneg
  have e := hrd (p - pos)
  have hu1 := h.unit
  rw [abs_of_nonneg (show 0 ≤ p - pos by linarith), abs_le] at e
  rw [abs_le] at ho hl
  have e1 : (n * r / 2 + 32 * (T / 2 ^ 53)) * (1 - 1 / 2 ^ 53) ≤ (p - pos) * (1 - 1 / 2 ^ 53) :=
    mul_le_mul_of_nonneg_right (by linarith) (by norm_num)
  have e2 : (p - pos) * (1 - 1 / 2 ^ 53) = (p - pos) - (p - pos) / 2 ^ 53 := by ring
  have e3 : (n * r / 2 + 32 * (T / 2 ^ 53)) * (1 - 1 / 2 ^ 53) =
      n * r / 2 + 32 * (T / 2 ^ 53) - (n * r / 2) / 2 ^ 53 - 32 * (T / 2 ^ 53 / 2 ^ 53) := by ring
  have e4 : T / 2 ^ 53 / 2 ^ 53 ≤ T / 2 ^ 53 / 32 := div_le_div_of_nonneg_left hu (by norm_num) (by norm_num)
  have e5 : (n * r / 2) / 2 ^ 53 ≤ T / 2 ^ 53 := div_le_div_of_nonneg_right (by linarith) (by positivity)
  have e6 : (n * r + r) / 2 ^ 53 ≤ T / 2 ^ 53 := div_le_div_of_nonneg_right (by linarith) (by positivity)
  have e7 : n * r / 2 ^ 53 ≤ T / 2 ^ 53 := div_le_div_of_nonneg_right (by linarith) (by positivity)
  have X : n * r + 28 * (T / 2 ^ 53) ≤ rd (p - pos) + toOriginRd rd len := by linarith
  generalize rd (p - pos) + toOriginRd rd len = x at *
  have f := hrd x
  rw [abs_of_nonneg (show 0 ≤ x by linarith), abs_le] at f
  have f1 : (n * r + 28 * (T / 2 ^ 53)) * (1 - 1 / 2 ^ 53) ≤ x * (1 - 1 / 2 ^ 53) :=
    mul_le_mul_of_nonneg_right X (by norm_num)
  have f2 : x * (1 - 1 / 2 ^ 53) = x - x / 2 ^ 53 := by ring
  have f3 : (n * r + 28 * (T / 2 ^ 53)) * (1 - 1 / 2 ^ 53) =
      n * r + 28 * (T / 2 ^ 53) - n * r / 2 ^ 53 - 28 * (T / 2 ^ 53 / 2 ^ 53) := by ring
  linarith

set_option maxHeartbeats 800000 in
-- many linear goals in one context
/-- A corner above the map is cut to the first cell. -/
theorem cut_high (h : Axis rd n pos len r T) (hrd : DoublePrecision rd) {p : K}
    (hp : pos + n * r / 2 + 32 * (T / 2 ^ 53) ≤ p) (hG : |pos| + 2 * ((n + 1) * r) ≤ 5 * max 1 |p|)
    (hM : max 1 |p| ≤ 2 ^ 46 * r) :
    0 ≤ fromBorderRd rd (boundPosition1Rd rd p len pos) len pos ∧
    fromBorderRd rd (boundPosition1Rd rd p len pos) len pos < len ∧
    cellRd rd (boundPosition1Rd rd p len pos) len pos r = 0 := by
  have g1 := h.nr_pos; have g2 := h.r_pos; have g3 := h.pos_le; have g4 := abs_nonneg pos
  have p1 := neg_abs_le pos
  have p2 := le_abs_self pos
  have hl := h.len_tight hrd
  have ho := h.origin_tight hrd
  obtain ⟨ga, gb⟩ := h.guard_size hrd hG hM
  have hu := h.unit_nonneg
  -- the test
  have htest := h.high_test hrd hp
  have hlen : r / 2 ≤ len := by
    have := h.unit_tight (c := n * r) (by linarith)
    rw [abs_le] at hl
    linarith
  have hb : boundPosition1Rd rd p len pos = rd (rd (rd (len - guardRd rd p) + pos) - toOriginRd rd len) := by
    unfold boundPosition1Rd
    simp only [htest, if_true, if_neg (show ¬ rd (rd (p - pos) + toOriginRd rd len) ≤ 0 by push Not; linarith)]
  rw [hb]
  generalize guardRd rd p = g at *
  have g0 : 0 ≤ g := le_trans (div_nonneg (by linarith) (by positivity)) ga
  have s0 := rd_tight hrd (x := len - g) (y := n * r - g) (c := n * r) (b := n * r) (r := r / 2)
    (by rwa [sub_sub_sub_cancel_right]) (by rw [abs_le]; constructor <;> linarith)
    (by have := h.unit_tight (c := n * r) (by linarith); linarith)
  have s1 := rd_tight hrd (x := rd (len - g) + pos) (y := n * r - g + pos) (c := n * r + n * r + r / 2) (b := |pos| + n * r)
    (r := r / 2) (by rwa [add_sub_add_right_eq_sub])
    ((abs_add_le _ _).trans (by rw [abs_of_nonneg (show 0 ≤ n * r - g by linarith)]; linarith))
    (by have := h.unit_tight (c := n * r + n * r + r / 2) (by linarith); linarith)
  have s2 := rd_tight hrd (x := rd (rd (len - g) + pos) - toOriginRd rd len) (y := pos + n * r / 2 - g)
    (c := |pos| + 4 * (n * r) + 2 * r) (b := |pos| + n * r / 2 + r / 6) (r := r / 2)
    (by
      have e : rd (rd (len - g) + pos) - toOriginRd rd len - (pos + n * r / 2 - g) =
        (rd (rd (len - g) + pos) - (n * r - g + pos)) - (toOriginRd rd len - n * r / 2) := by ring
      rw [e]
      refine (abs_sub _ _).trans ((add_le_add s1 ho).trans (le_of_eq ?_))
      ring)
    (by rw [abs_le]; constructor <;> linarith)
    (by have := h.unit_tight (c := |pos| + 4 * (n * r) + 2 * r) (by linarith); linarith)
  generalize rd (rd (rd (len - g) + pos) - toOriginRd rd len) = P at *
  have hP : |P - (pos + n * r / 2 - g)| ≤ (2 * |pos| + 9 / 2 * (n * r) + 8 / 3 * r) / 2 ^ 53 := s2.trans (le_of_eq (by ring))
  have hD : |pos + n * r / 2 - (pos + n * r / 2 - g)| ≤ r / 6 := by rw [abs_le]; constructor <;> linarith
  have t1 := h.border_tight hrd hP (b1 := n * r / 2) (by rw [abs_le]; constructor <;> linarith) hD (by linarith)
  have t2 := h.quotient_tight hrd hP hD (b3 := |pos| + r / 6) (by rw [abs_le]; constructor <;> linarith)
    (by linarith)
  have hc : cellRd rd P len pos r = -truncToInt (rd (rd (rd (P - toOriginRd rd len) - pos) / r)) := rfl
  rw [hc]
  generalize rd (rd (rd (P - toOriginRd rd len) - pos) / r) = q at *
  generalize fromBorderRd rd P len pos = t at *
  rw [show 2 * |pos| + 9 / 2 * (n * r) + 8 / 3 * r + n * r / 2 + n * r + r / 6 + 3 * r =
    2 * |pos| + 6 * (n * r) + 35 / 6 * r by ring] at t1
  rw [show 2 * |pos| + 9 / 2 * (n * r) + 8 / 3 * r + n * r + (|pos| + r / 6) + 2 * (r / 6) + 4 * r =
    3 * |pos| + 11 / 2 * (n * r) + 43 / 6 * r by ring] at t2
  have u1 := h.unit_tight (c := 2 * |pos| + 6 * (n * r) + 35 / 6 * r) (by linarith)
  have u2 := h.unit_tight (c := 3 * |pos| + 11 / 2 * (n * r) + 43 / 6 * r) (by linarith)
  have v1 : (2 * |pos| + 6 * (n * r) + 35 / 6 * r) / 2 ^ 53 ≤ (4 * |pos| + 8 * (n * r) + 7 * r) / 2 ^ 53 :=
    div_le_div_of_nonneg_right (by linarith) (by positivity)
  rw [abs_le] at t1 t2 hl
  have hl1 : n * r - r / 8 ≤ len := by
    have := h.unit_tight (c := n * r) (by linarith)
    linarith
  refine ⟨by linarith, by linarith, ?_⟩
  have q1 : -(1 / 2) ≤ q := by
    have : -(1 / 2) * r ≤ q * r := by linarith
    exact le_of_mul_le_mul_right this g2
  have q2 : q ≤ 1 / 2 := by
    have : q * r ≤ 1 / 2 * r := by linarith
    exact le_of_mul_le_mul_right this g2
  by_cases q0 : q ≤ 0
  · rw [neg_truncToInt_of_nonpos q0, Int.floor_eq_iff]
    push_cast
    constructor <;> linarith
  · push Not at q0
    rw [truncToInt_of_nonneg q0.le, neg_eq_zero, Int.floor_eq_iff]
    push_cast
    constructor <;> linarith

/-- A corner inside the map stays where it is. -/
theorem cut_mid (h : Axis rd n pos len r T) (hrd : DoublePrecision rd) {p : K}
    (hp : |p - pos| ≤ n * r / 2 - 64 * (T / 2 ^ 53)) :
    0 ≤ fromBorderRd rd (boundPosition1Rd rd p len pos) len pos ∧
    fromBorderRd rd (boundPosition1Rd rd p len pos) len pos < len ∧
    0 ≤ cellRd rd (boundPosition1Rd rd p len pos) len pos r ∧ cellRd rd (boundPosition1Rd rd p len pos) len pos r < n ∧
    (cellRd rd (boundPosition1Rd rd p len pos) len pos r : K) * r - 32 * (T / 2 ^ 53) ≤ pos + n * r / 2 - p ∧
    pos + n * r / 2 - p ≤ ((cellRd rd (boundPosition1Rd rd p len pos) len pos r : K) + 1) * r + 32 * (T / 2 ^ 53) := by
  have g1 := h.nr_pos; have g2 := h.r_pos; have g3 := h.pos_le; have g4 := abs_nonneg pos
  have p1 := neg_abs_le pos
  have p2 := le_abs_self pos
  have hT := h.T_pos.le; have hu := h.unit; have hu0 := div_pos h.T_pos (show (0 : K) < 2 ^ 53 by positivity)
  have hl := h.len_err hrd
  have ho := h.origin_err hrd
  rw [abs_le] at hp hl
  have s1 := rd_step1 (x := p - pos) (y := p - pos) (c := 0) hrd hT (by positivity) (by simp)
    (by rw [abs_le]; constructor <;> linarith)
  have s2 := rd_step1 (x := rd (p - pos) + toOriginRd rd len) (y := p - pos + n * r / 2) (c := 5) hrd hT (by norm_num)
    (by rw [abs_le] at s1 ho ⊢; constructor <;> linarith) (by rw [abs_le]; constructor <;> linarith)
  have hb : boundPosition1Rd rd p len pos =
      rd (rd (rd (rd (p - pos) + toOriginRd rd len) + pos) - toOriginRd rd len) := by
    rw [abs_le] at s2
    unfold boundPosition1Rd
    simp only [if_neg (show ¬ rd (rd (p - pos) + toOriginRd rd len) ≤ 0 by push Not; linarith),
      if_neg (show ¬ len ≤ rd (rd (p - pos) + toOriginRd rd len) by push Not; linarith)]
  rw [hb]
  have s3 := rd_step1 (x := rd (rd (p - pos) + toOriginRd rd len) + pos) (y := p + n * r / 2) (c := 7) hrd hT (by norm_num)
    (by rw [abs_le] at s2 ⊢; constructor <;> linarith) (by rw [abs_le]; constructor <;> linarith)
  have s4 := rd_step1 (x := rd (rd (rd (p - pos) + toOriginRd rd len) + pos) - toOriginRd rd len) (y := p) (c := 12) hrd hT
    (by norm_num) (by rw [abs_le] at s3 ho ⊢; constructor <;> linarith) (by rw [abs_le]; constructor <;> linarith)
  generalize rd (rd (rd (rd (p - pos) + toOriginRd rd len) + pos) - toOriginRd rd len) = P at *
  rw [abs_le] at s4
  obtain ⟨i1, i2⟩ := h.inside_of hrd (p := P) (by linarith) (by linarith)
  obtain ⟨c1, -, c3, c4, c5⟩ := h.cell_near hrd i1 i2
  refine ⟨i1, i2, c1, c5 (by linarith), by linarith, by linarith⟩

/-- All cases of a corner: the cell found contains the corner, cut to the map, up to the tolerance. -/
theorem cut (h : Axis rd n pos len r T) (hrd : DoublePrecision rd) {p : K} (hp : CornerOk n r pos p) :
    0 ≤ fromBorderRd rd (boundPosition1Rd rd p len pos) len pos ∧
    fromBorderRd rd (boundPosition1Rd rd p len pos) len pos < len ∧
    0 ≤ cellRd rd (boundPosition1Rd rd p len pos) len pos r ∧ cellRd rd (boundPosition1Rd rd p len pos) len pos r < n ∧
    (cellRd rd (boundPosition1Rd rd p len pos) len pos r : K) * r - 32 * (T / 2 ^ 53) ≤
      max 0 (min (n * r) (pos + n * r / 2 - p)) ∧
    max 0 (min (n * r) (pos + n * r / 2 - p)) ≤
      ((cellRd rd (boundPosition1Rd rd p len pos) len pos r : K) + 1) * r + 32 * (T / 2 ^ 53) := by
  have g1 := h.nr_pos; have g2 := h.r_pos; have hu := h.unit_nonneg
  have hT : extent n pos r / 2 ^ 48 = 32 * (T / 2 ^ 53) := by rw [h.ext]; unfold extent; ring
  unfold CornerOk at hp
  rw [hT] at hp
  have hn := h.n_pos
  rcases hp with hp | ⟨hp, hG, hM⟩
  · have hp' : |p - pos| ≤ n * r / 2 - 64 * (T / 2 ^ 53) := by linarith
    obtain ⟨a, b, c, d, e, f⟩ := h.cut_mid hrd hp'
    rw [abs_le] at hp'
    rw [min_eq_right (by linarith), max_eq_right (by linarith)]
    exact ⟨a, b, c, d, e, f⟩
  · rcases le_total p pos with h0 | h0
    · rw [abs_of_nonpos (by linarith)] at hp
      obtain ⟨a, b, c⟩ := h.cut_low hrd (by linarith) hG hM
      rw [c, min_eq_left (by linarith), max_eq_right (by linarith)]
      push_cast
      exact ⟨a, b, by omega, by omega, by linarith, by linarith⟩
    · rw [abs_of_nonneg (by linarith)] at hp
      obtain ⟨a, b, c⟩ := h.cut_high hrd (by linarith) hG hM
      rw [c, max_eq_left (min_le_of_right_le (by linarith))]
      push_cast
      exact ⟨a, b, trivial, by omega, by linarith, by linarith⟩

/-- The position of a submap from its first row and its number of rows, as computed. -/
def subPosRd (rd : K → K) (t sz : Int) (len pos r : K) : K :=
  rd (rd (centreRd rd t len pos r + rd (1 / 2 * r)) - toOriginRd rd (rd ((sz : K) * r)))

theorem subPos_err (h : Axis rd n pos len r T) (hrd : DoublePrecision rd) {t sz : Int} (ht : 0 ≤ t) (hsz : 1 ≤ sz)
    (hfit : t + sz ≤ n) :
    |subPosRd rd t sz len pos r + sz * r / 2 - (pos + n * r / 2 - r * t)| ≤ 22 * (T / 2 ^ 53) := by
  have g1 := h.nr_pos; have g2 := h.r_pos; have g3 := h.pos_le; have g4 := abs_nonneg pos
  have p1 := neg_abs_le pos
  have p2 := le_abs_self pos
  have hT := h.T_pos.le
  have hc := h.centre_err hrd ht (by omega)
  have u0 : (0 : K) ≤ r * t := mul_nonneg g2.le (by exact_mod_cast ht)
  have z0 : r ≤ (sz : K) * r := by
    have : (1 : K) ≤ sz := by exact_mod_cast hsz
    nlinarith
  have u1 : r * t + sz * r ≤ n * r := by
    have : (t : K) + sz ≤ n := by exact_mod_cast hfit
    nlinarith
  have s1 := rd_step1 (x := 1 / 2 * r) (y := r / 2) (c := 0) hrd hT (by positivity)
    (by rw [show 1 / 2 * r - r / 2 = 0 by ring]; simp) (by rw [abs_of_nonneg (by linarith)]; linarith)
  have s2 := rd_step1 (x := centreRd rd t len pos r + rd (1 / 2 * r)) (y := pos + n * r / 2 - r * t) (c := 15) hrd hT
    (by norm_num) (by rw [abs_le] at hc s1 ⊢; constructor <;> linarith) (by rw [abs_le]; constructor <;> linarith)
  have s3 := rd_step1 (x := (sz : K) * r) (y := sz * r) (c := 0) hrd hT (by positivity) (by simp)
    (by rw [abs_of_nonneg (by linarith)]; linarith)
  have s4 := rd_step1 (x := 1 / 2 * rd ((sz : K) * r)) (y := sz * r / 2) (c := 1) hrd hT (by norm_num) (by
    rw [abs_le] at s3 ⊢; constructor <;> linarith) (by rw [abs_of_nonneg (by linarith)]; linarith)
  have s5 := rd_step1 (x := rd (centreRd rd t len pos r + rd (1 / 2 * r)) - rd (1 / 2 * rd ((sz : K) * r)))
    (y := pos + n * r / 2 - r * t - sz * r / 2) (c := 20) hrd hT (by norm_num) (by
    rw [abs_le] at s2 s4 ⊢; constructor <;> linarith) (by rw [abs_le]; constructor <;> linarith)
  have e : subPosRd rd t sz len pos r + sz * r / 2 - (pos + n * r / 2 - r * t) =
      subPosRd rd t sz len pos r - (pos + n * r / 2 - r * t - sz * r / 2) := by ring
  rw [e]
  exact s5.trans (by linarith)

/-- What is known of one axis of a submap. -/
structure SubAxis (rd : K → K) (n : Int) (pos len r T p hi lo : K) (t b : Int) : Prop where
  t0 : 0 ≤ t
  tb : t ≤ b
  bn : b < n
  axis : Axis rd (b - t + 1) (subPosRd rd t (b - t + 1) len pos r) (rd (((b - t + 1 : Int) : K) * r)) r
    (|subPosRd rd t (b - t + 1) len pos r| + (((b - t + 1 : Int) : K) + 1) * r)
  grid : |pos + n * r / 2 - (subPosRd rd t (b - t + 1) len pos r + ((b - t + 1 : Int) : K) * r / 2) - t * r| ≤
    22 * (T / 2 ^ 53)
  inside : 0 ≤ fromBorderRd rd p (rd (((b - t + 1 : Int) : K) * r)) (subPosRd rd t (b - t + 1) len pos r) ∧
    fromBorderRd rd p (rd (((b - t + 1 : Int) : K) * r)) (subPosRd rd t (b - t + 1) len pos r) <
      rd (((b - t + 1 : Int) : K) * r)
  cut : CostMap.CutAxis (64 * (T / 2 ^ 53)) r (max lo (pos - n * r / 2)) (min hi (pos + n * r / 2))
    (subPosRd rd t (b - t + 1) len pos r - ((b - t + 1 : Int) : K) * r / 2)
    (subPosRd rd t (b - t + 1) len pos r + ((b - t + 1 : Int) : K) * r / 2)
  cells : roundHalfAway (rd (rd (((b - t + 1 : Int) : K) * r) / r)) = b - t + 1
  len_pos : 0 < rd (((b - t + 1 : Int) : K) * r)

set_option maxHeartbeats 1600000 in
-- many linear goals in one context
/-- One axis of a submap. -/
theorem sub_axis (h : Axis rd n pos len r T) (hrd : DoublePrecision rd) (ht : T ≤ 2 ^ 43 * r) {p hi lo : K}
    (hh : CornerOk n r pos hi) (hl : CornerOk n r pos lo) (hp : |p - pos| ≤ n * r / 2 - 128 * (T / 2 ^ 53))
    (hph : p + 128 * (T / 2 ^ 53) ≤ hi) (hpl : lo ≤ p - 128 * (T / 2 ^ 53)) :
    SubAxis rd n pos len r T p hi lo (cellRd rd (boundPosition1Rd rd hi len pos) len pos r)
      (cellRd rd (boundPosition1Rd rd lo len pos) len pos r) := by
  obtain ⟨-, -, t0, tn, t1, t2⟩ := h.cut hrd hh
  obtain ⟨-, -, b0, bn, b1, b2⟩ := h.cut hrd hl
  generalize cellRd rd (boundPosition1Rd rd hi len pos) len pos r = t at *
  generalize cellRd rd (boundPosition1Rd rd lo len pos) len pos r = b at *
  have g1 := h.nr_pos; have g2 := h.r_pos; have g3 := h.pos_le; have g4 := abs_nonneg pos
  have hu := h.unit_nonneg
  have hu1 := h.unit
  rw [abs_le] at hp
  -- the corners cut to the map
  have eh : max 0 (min (n * r) (pos + n * r / 2 - hi)) = pos + n * r / 2 - min hi (pos + n * r / 2) := by
    rw [min_eq_right (by linarith)]
    rcases le_total hi (pos + n * r / 2) with a | a
    · rw [min_eq_left a, max_eq_right (by linarith)]
    · rw [min_eq_right a, max_eq_left (by linarith)]; ring
  have el : max 0 (min (n * r) (pos + n * r / 2 - lo)) = pos + n * r / 2 - max lo (pos - n * r / 2) := by
    rcases le_total lo (pos - n * r / 2) with a | a
    · rw [max_eq_right a, min_eq_left (by linarith), max_eq_right (by linarith)]; ring
    · rw [max_eq_left a, min_eq_right (by linarith), max_eq_right (by linarith)]
  rw [eh] at t1 t2
  rw [el] at b1 b2
  have mh : p + 128 * (T / 2 ^ 53) ≤ min hi (pos + n * r / 2) := le_min hph (by linarith)
  have ml : max lo (pos - n * r / 2) ≤ p - 128 * (T / 2 ^ 53) := max_le hpl (by linarith)
  have tb : t ≤ b := by
    have : (t : K) * r < (b + 1) * r := by linarith
    have : (t : K) < ((b + 1 : Int) : K) := by push_cast; exact lt_of_mul_lt_mul_right this g2.le
    have : t < b + 1 := by exact_mod_cast this
    omega
  have hE := h.subPos_err hrd t0 (sz := b - t + 1) (by omega) (by omega)
  have esz : ((b - t + 1 : Int) : K) * r = (b + 1) * r - t * r := by push_cast; ring
  have szn : ((b - t + 1 : Int) : K) * r ≤ n * r := by
    have : ((b - t + 1 : Int) : K) ≤ n := by exact_mod_cast (show b - t + 1 ≤ n by omega)
    nlinarith
  have sz1 : r ≤ ((b - t + 1 : Int) : K) * r := by
    have : (1 : K) ≤ ((b - t + 1 : Int) : K) := by exact_mod_cast (show 1 ≤ b - t + 1 by omega)
    nlinarith
  have tr : (0 : K) ≤ t * r := mul_nonneg (by exact_mod_cast t0) g2.le
  have hext : |subPosRd rd t (b - t + 1) len pos r| + (((b - t + 1 : Int) : K) + 1) * r ≤ 2 * T := by
    have p1 := neg_abs_le pos
    have p2 := le_abs_self pos
    have tn' : (t : K) * r ≤ n * r := by
      have : (t : K) ≤ n := by exact_mod_cast tn.le
      nlinarith
    have bn' : ((b : K) + 1) * r ≤ n * r := by
      have : (b : K) + 1 ≤ n := by exact_mod_cast bn
      nlinarith
    have : |subPosRd rd t (b - t + 1) len pos r| ≤ |pos| + n * r / 2 + 22 * (T / 2 ^ 53) := by
      rw [abs_le] at hE ⊢
      constructor <;> linarith
    rw [add_mul, one_mul]
    linarith
  have hax : Axis rd (b - t + 1) (subPosRd rd t (b - t + 1) len pos r) (rd (((b - t + 1 : Int) : K) * r)) r
      (|subPosRd rd t (b - t + 1) len pos r| + (((b - t + 1 : Int) : K) + 1) * r) :=
    ⟨g2, by omega, rfl, rfl, hext.trans (by linarith)⟩
  have hL : |rd (((b - t + 1 : Int) : K) * r) - ((b - t + 1 : Int) : K) * r| ≤ 2 * (T / 2 ^ 53) := by
    have := rd_step1 (x := ((b - t + 1 : Int) : K) * r) (y := ((b - t + 1 : Int) : K) * r) (c := 0) hrd h.T_pos.le
      (by positivity) (by simp) (by rw [abs_of_nonneg (by linarith)]; linarith)
    linarith
  have hu' : 32 * ((|subPosRd rd t (b - t + 1) len pos r| + (((b - t + 1 : Int) : K) + 1) * r) / 2 ^ 53) ≤
      64 * (T / 2 ^ 53) := by
    have := div_le_div_of_nonneg_right hext (show (0 : K) ≤ 2 ^ 53 by positivity)
    rw [mul_div_assoc] at this
    linarith
  have hE' := hE
  have hL' := hL
  rw [abs_le] at hE hL
  refine ⟨t0, tb, bn, hax, ?_, ?_, ?_, ?_, by linarith⟩
  · rw [abs_le]; constructor <;> linarith
  · exact hax.inside_of hrd (by linarith) (by linarith)
  · refine ⟨by linarith, by linarith, by linarith, by linarith⟩
  · apply cells_axis hrd (by omega)
    · have : (n : K) * r ≤ 2 ^ 43 * r := by linarith
      have : (n : K) ≤ 2 ^ 43 := le_of_mul_le_mul_right this g2
      have : n ≤ 2 ^ 43 := by exact_mod_cast this
      omega
    · have e : rd (((b - t + 1 : Int) : K) * r) / r - ((b - t + 1 : Int) : K) =
          (rd (((b - t + 1 : Int) : K) * r) - ((b - t + 1 : Int) : K) * r) / r := by
        rw [sub_div, mul_div_assoc, div_self g2.ne', mul_one]
      rw [e, abs_div, abs_of_pos g2, div_le_iff₀ g2]
      linarith

end Axis
end CostMapModel

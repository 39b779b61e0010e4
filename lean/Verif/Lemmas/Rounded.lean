import Verif.Model.Rounded
import Verif.Spec.Rounded
import Verif.Lemmas.Geometry
import Verif.Lemmas.Float
import Mathlib.Algebra.Order.Round
import Mathlib.Data.Rat.Floor

/-!
# Error bounds for the geometry in rounded arithmetic
-/

set_option linter.unusedSectionVars false

namespace CostMapModel
open CostMap
variable {K : Type} [Field K] [LinearOrder K] [IsStrictOrderedRing K] [FloorRing K]

/-- One rounded operation: an error of `c` units on numbers below `a * T` becomes one of `c + a + 1` units. -/
theorem rd_step {rd : K → K} (hrd : DoublePrecision rd) {x y c a T : K} (hT : 0 ≤ T) (hc : c ≤ 2 ^ 53)
    (h : |x - y| ≤ c * (T / 2 ^ 53)) (hy : |y| ≤ a * T) : |rd x - y| ≤ (c + a + 1) * (T / 2 ^ 53) := by
  have h1 := hrd x
  have hp : (0 : K) < 2 ^ 53 := by positivity
  have hx : |x| ≤ a * T + T := by
    have : |x| ≤ |x - y| + |y| := by simpa using abs_add_le (x - y) y
    have h2 : c * (T / 2 ^ 53) ≤ T := by
      rw [← mul_div_assoc, div_le_iff₀ hp]; nlinarith
    linarith
  have h3 : |x| / 2 ^ 53 ≤ (a + 1) * (T / 2 ^ 53) := by
    rw [← mul_div_assoc]
    exact div_le_div_of_nonneg_right (by linarith) hp.le
  have h4 : |rd x - y| ≤ |rd x - x| + |x - y| := by
    have := abs_add_le (rd x - x) (x - y)
    rwa [sub_add_sub_cancel] at this
  linarith

/-- `rd_step` with numbers below `T`. -/
theorem rd_step1 {rd : K → K} (hrd : DoublePrecision rd) {x y c T : K} (hT : 0 ≤ T) (hc : c ≤ 2 ^ 53)
    (h : |x - y| ≤ c * (T / 2 ^ 53)) (hy : |y| ≤ T) : |rd x - y| ≤ (c + 2) * (T / 2 ^ 53) := by
  have := rd_step (a := 1) hrd hT hc h (by linarith)
  linarith

/-- A rounded number is at least half its argument. -/
theorem rd_lower {rd : K → K} (hrd : DoublePrecision rd) (x : K) : |x| ≤ 2 * |rd x| := by
  have h1 := hrd x
  have h2 : |x| ≤ |rd x| + |rd x - x| := by
    have := abs_add_le (rd x) (x - rd x)
    rwa [add_sub_cancel, abs_sub_comm x] at this
  have h3 : |x| / 2 ^ 53 ≤ |x| / 2 := div_le_div_of_nonneg_left (abs_nonneg x) (by norm_num) (by norm_num)
  linarith

/-- The number of cells, computed from a length near a whole number of cells. -/
theorem cells_axis {rd : K → K} (hrd : DoublePrecision rd) {len r : K} {n : Int} (hn : 1 ≤ n) (hn' : n ≤ 2 ^ 47)
    (h : |len / r - n| ≤ 1 / 4) : roundHalfAway (rd (len / r)) = n := by
  have n1 : (1 : K) ≤ n := by exact_mod_cast hn
  have n2 : (n : K) ≤ 2 ^ 47 := by exact_mod_cast hn'
  have e := hrd (len / r)
  rw [abs_le] at h
  have hx : 0 ≤ len / r := by linarith
  rw [abs_of_nonneg hx, abs_le] at e
  have : len / r / 2 ^ 53 ≤ 1 / 8 := by
    rw [div_le_iff₀ (by positivity)]
    have : (2 : K) ^ 47 + 1 / 4 ≤ 1 / 8 * 2 ^ 53 := by norm_num
    linarith
  unfold roundHalfAway
  rw [if_pos (by linarith), Int.floor_eq_iff]
  constructor <;> linarith

/-- The numbers of one axis of a map. -/
structure Axis (rd : K → K) (n : Int) (pos len r T : K) : Prop where
  r_pos : 0 < r
  n_pos : 1 ≤ n
  len : len = rd ((n : K) * r)
  ext : T = |pos| + ((n : K) + 1) * r
  tame : T ≤ 2 ^ 47 * r

namespace Axis
variable {rd : K → K} {n : Int} {pos len r T : K}

theorem n_pos' (h : Axis rd n pos len r T) : (1 : K) ≤ n := by exact_mod_cast h.n_pos

theorem nr_pos (h : Axis rd n pos len r T) : r ≤ (n : K) * r := by
  have := h.n_pos'; have := h.r_pos; nlinarith

theorem T_pos (h : Axis rd n pos len r T) : 0 < T := by
  have := h.nr_pos; have := h.r_pos; have := abs_nonneg pos; rw [h.ext]; nlinarith

/-- A unit of the error is far below a cell. -/
theorem unit (h : Axis rd n pos len r T) : 64 * (T / 2 ^ 53) ≤ r := by
  have := h.tame
  rw [← mul_div_assoc, div_le_iff₀ (by positivity)]
  nlinarith

theorem unit_nonneg (h : Axis rd n pos len r T) : 0 ≤ T / 2 ^ 53 := div_nonneg h.T_pos.le (by positivity)

theorem pos_le (h : Axis rd n pos len r T) : |pos| + (n : K) * r + r = T := by rw [h.ext]; ring

theorem len_err (h : Axis rd n pos len r T) (hrd : DoublePrecision rd) : |len - n * r| ≤ 2 * (T / 2 ^ 53) := by
  have h1 := h.nr_pos; have h2 := h.r_pos; have h3 := h.pos_le; have := abs_nonneg pos
  have := rd_step1 (x := (n : K) * r) (y := n * r) (c := 0) hrd h.T_pos.le (by positivity) (by simp)
    (by rw [abs_of_nonneg (by linarith)]; linarith)
  rw [h.len]; linarith

theorem origin_err (h : Axis rd n pos len r T) (hrd : DoublePrecision rd) :
    |toOriginRd rd len - n * r / 2| ≤ 3 * (T / 2 ^ 53) := by
  have h0 := h.len_err hrd
  have h1 := h.nr_pos; have h2 := h.r_pos; have h3 := h.pos_le; have := abs_nonneg pos
  have := rd_step1 (x := 1 / 2 * len) (y := n * r / 2) (c := 1) hrd h.T_pos.le (by norm_num) (by
    rw [abs_le] at h0 ⊢; constructor <;> linarith) (by rw [abs_of_nonneg (by linarith)]; linarith)
  unfold toOriginRd; linarith

/-- The centre of cell `u`, computed, is the centre up to 13 units. -/
theorem centre_err (h : Axis rd n pos len r T) (hrd : DoublePrecision rd) {u : Int} (hu : 0 ≤ u) (hu' : u < n) :
    |centreRd rd u len pos r - (pos + n * r / 2 - r / 2 - r * u)| ≤ 13 * (T / 2 ^ 53) := by
  have h1 := h.nr_pos; have h2 := h.r_pos; have h3 := h.pos_le; have h4 := abs_nonneg pos
  have hT := h.T_pos.le
  have u0 : (0 : K) ≤ r * u := mul_nonneg h2.le (by exact_mod_cast hu)
  have u1 : r * u + r ≤ n * r := by
    have : (u : K) + 1 ≤ n := by exact_mod_cast hu'
    nlinarith
  have p1 := neg_abs_le pos
  have p2 := le_abs_self pos
  have ho := h.origin_err hrd
  have hh := rd_step1 (x := 1 / 2 * r) (y := r / 2) (c := 0) hrd hT (by positivity)
    (by rw [show 1 / 2 * r - r / 2 = 0 by ring]; simp) (by rw [abs_of_nonneg (by linarith)]; linarith)
  have hf := rd_step1 (x := toOriginRd rd len - rd (1 / 2 * r)) (y := n * r / 2 - r / 2) (c := 5) hrd hT (by norm_num)
    (by rw [abs_le] at ho hh ⊢; constructor <;> linarith) (by rw [abs_of_nonneg (by linarith)]; linarith)
  have hs := rd_step1 (x := pos + toFirstCellRd rd len r) (y := pos + (n * r / 2 - r / 2)) (c := 7) hrd hT (by norm_num)
    (by rw [add_sub_add_left_eq_sub]; unfold toFirstCellRd; linarith) (by rw [abs_le]; constructor <;> linarith)
  have hq := rd_step1 (x := r * ((-u : Int) : K)) (y := -(r * u)) (c := 0) hrd hT (by positivity)
    (by push_cast; rw [show r * -(u : K) - -(r * u) = 0 by ring]; simp)
    (by rw [abs_neg, abs_of_nonneg u0]; linarith)
  have := rd_step1 (x := rd (pos + toFirstCellRd rd len r) + rd (r * ((-u : Int) : K)))
    (y := pos + n * r / 2 - r / 2 - r * u) (c := 11) hrd hT (by norm_num)
    (by rw [abs_le] at hs hq ⊢; constructor <;> linarith) (by rw [abs_le]; constructor <;> linarith)
  unfold centreRd; linarith

/-- The distance from the upper border, computed, for positions near the map. -/
theorem border_err (h : Axis rd n pos len r T) (hrd : DoublePrecision rd) {p a : K} (ha : a ≤ 100)
    (hp : |p - pos| ≤ a * T) :
    |fromBorderRd rd p len pos - (pos + n * r / 2 - p)| ≤ (2 * a + 6) * (T / 2 ^ 53) := by
  have h1 := h.nr_pos; have h2 := h.r_pos; have h3 := h.pos_le; have h4 := abs_nonneg pos
  have hT := h.T_pos.le
  have ho := h.origin_err hrd
  have hd := rd_step (x := p - pos) (y := p - pos) (c := 0) hrd hT (by positivity) (by simp) hp
  have := rd_step (x := rd (p - pos) - toOriginRd rd len) (y := p - pos - n * r / 2) (c := a + 4) (a := a + 1) hrd hT
    (by norm_num; linarith) (by rw [abs_le] at ho hd ⊢; constructor <;> linarith)
    (by rw [abs_le] at hp ⊢; constructor <;> linarith)
  unfold fromBorderRd
  rw [abs_le] at this ⊢
  constructor <;> linarith

/-- Where the inside test succeeds, the position is near the map. -/
theorem inside_near (h : Axis rd n pos len r T) (hrd : DoublePrecision rd) {p : K}
    (h0 : 0 ≤ fromBorderRd rd p len pos) (h1 : fromBorderRd rd p len pos < len) :
    |p - pos| ≤ n * r / 2 + 24 * (T / 2 ^ 53) := by
  have g1 := h.nr_pos; have g2 := h.r_pos; have g3 := h.pos_le; have g4 := abs_nonneg pos
  have hu := h.unit; have hu0 := h.unit_nonneg
  have hl := h.len_err hrd
  have ho := h.origin_err hrd
  have e : |rd (rd (p - pos) - toOriginRd rd len)| = fromBorderRd rd p len pos := by
    rw [← abs_of_nonneg h0, fromBorderRd, abs_neg]
  have b1 := rd_lower hrd (rd (p - pos) - toOriginRd rd len)
  have b2 := rd_lower hrd (p - pos)
  rw [e] at b1
  have b3 : |rd (p - pos)| ≤ |rd (p - pos) - toOriginRd rd len| + |toOriginRd rd len| := by
    simpa using abs_add_le (rd (p - pos) - toOriginRd rd len) (toOriginRd rd len)
  rw [abs_le] at hl ho
  have b4 : |toOriginRd rd len| ≤ T := by rw [abs_le]; constructor <;> linarith
  have b5 : |p - pos| ≤ 8 * T := by linarith
  have := h.border_err hrd (by norm_num) b5
  rw [abs_le] at this ⊢
  constructor <;> linarith

/-- Positions near the map are within its extent. -/
theorem near_le (h : Axis rd n pos len r T) {p : K} (hp : |p - pos| ≤ n * r / 2 + 24 * (T / 2 ^ 53)) :
    |p - pos| ≤ 1 * T := by
  have g1 := h.nr_pos; have g2 := h.r_pos; have g3 := h.pos_le; have g4 := abs_nonneg pos
  have hu := h.unit
  linarith

/-- The quotient that is truncated to the cell number. -/
theorem quotient_err (h : Axis rd n pos len r T) (hrd : DoublePrecision rd) {p : K}
    (hp : |p - pos| ≤ n * r / 2 + 24 * (T / 2 ^ 53)) :
    |rd (rd (rd (p - toOriginRd rd len) - pos) / r) + (pos + n * r / 2 - p) / r| ≤ 9 * (T / 2 ^ 53 / r) := by
  have g1 := h.nr_pos; have g2 := h.r_pos; have g3 := h.pos_le; have g4 := abs_nonneg pos
  have hT := h.T_pos.le; have hu := h.unit; have hu0 := h.unit_nonneg
  have ho := h.origin_err hrd
  have p1 := neg_abs_le pos
  have p2 := le_abs_self pos
  rw [abs_le] at hp
  have h1 := rd_step1 (x := p - toOriginRd rd len) (y := p - n * r / 2) (c := 3) hrd hT (by norm_num)
    (by rw [abs_le] at ho ⊢; constructor <;> linarith) (by rw [abs_le]; constructor <;> linarith)
  have h2 := rd_step1 (x := rd (p - toOriginRd rd len) - pos) (y := p - n * r / 2 - pos) (c := 5) hrd hT (by norm_num)
    (by rw [abs_le] at h1 ⊢; constructor <;> linarith) (by rw [abs_le]; constructor <;> linarith)
  have h3 := rd_step1 (x := rd (rd (p - toOriginRd rd len) - pos) / r) (y := (p - n * r / 2 - pos) / r) (c := 7)
    (T := T / r) hrd (div_nonneg hT g2.le) (by norm_num)
    (by
      rw [← sub_div, abs_div, abs_of_pos g2, div_le_iff₀ g2]
      have : 7 * (T / r / 2 ^ 53) * r = 7 * (T / 2 ^ 53) := by field_simp
      rw [this]; linarith)
    (by
      rw [abs_div, abs_of_pos g2]
      exact div_le_div_of_nonneg_right (by rw [abs_le]; constructor <;> linarith) g2.le)
  have e : rd (rd (rd (p - toOriginRd rd len) - pos) / r) + (pos + n * r / 2 - p) / r
      = rd (rd (rd (p - toOriginRd rd len) - pos) / r) - (p - n * r / 2 - pos) / r := by ring
  rw [e, div_right_comm]
  linarith

theorem unit_div (h : Axis rd n pos len r T) : 64 * (T / 2 ^ 53 / r) ≤ 1 := by
  have := h.unit
  rw [← mul_div_assoc, div_le_iff₀ h.r_pos]; linarith

theorem unit_div_pos (h : Axis rd n pos len r T) : 0 < T / 2 ^ 53 / r :=
  div_pos (div_pos h.T_pos (by positivity)) h.r_pos

/-- The cell number computed for a position that passes the inside test. -/
theorem cell_near (h : Axis rd n pos len r T) (hrd : DoublePrecision rd) {p : K}
    (h0 : 0 ≤ fromBorderRd rd p len pos) (h1 : fromBorderRd rd p len pos < len) :
    0 ≤ cellRd rd p len pos r ∧ cellRd rd p len pos r ≤ n ∧
      (cellRd rd p len pos r : K) * r - 17 * (T / 2 ^ 53) ≤ pos + n * r / 2 - p ∧
      pos + n * r / 2 - p ≤ ((cellRd rd p len pos r : K) + 1) * r + 9 * (T / 2 ^ 53) ∧
      (pos + n * r / 2 - p ≤ n * r - 10 * (T / 2 ^ 53) → cellRd rd p len pos r < n) := by
  have hp := h.inside_near hrd h0 h1
  have g2 := h.r_pos
  have hl := h.len_err hrd
  have hb := h.border_err hrd (by norm_num) (h.near_le hp)
  have hq := h.quotient_err hrd hp
  have d1 := h.unit_div
  have d0 := h.unit_div_pos
  -- everything in units of a cell
  have ez : pos + n * r / 2 - p = (pos + n * r / 2 - p) / r * r := by field_simp
  have ed : T / 2 ^ 53 = T / 2 ^ 53 / r * r := by field_simp
  rw [ez, ed] at hb
  rw [ed] at hl
  set z := (pos + n * r / 2 - p) / r with hz
  set d := T / 2 ^ 53 / r with hd
  set v := rd (rd (rd (p - toOriginRd rd len) - pos) / r) with hv
  have hc : cellRd rd p len pos r = -truncToInt v := rfl
  rw [abs_le] at hb hl hq
  have z0 : -(8 * d) ≤ z := by
    by_contra hn
    push Not at hn
    nlinarith
  have z1 : z < n + 10 * d := by
    by_contra hn
    push Not at hn
    nlinarith
  rw [hc, ez, ed]
  have fin : ∀ i : Int, 0 ≤ i → i ≤ n → (i : K) - 17 * d ≤ z → z ≤ i + 1 + 9 * d → (z ≤ n - 10 * d → i < n) →
      0 ≤ i ∧ i ≤ n ∧ (i : K) * r - 17 * (d * r) ≤ z * r ∧ z * r ≤ ((i : K) + 1) * r + 9 * (d * r) ∧
      (z * r ≤ n * r - 10 * (d * r) → i < n) := by
    intro i a b c e f
    refine ⟨a, b, by nlinarith, by nlinarith, fun g => f ?_⟩
    by_contra hn
    push Not at hn
    nlinarith
  by_cases hv0 : v ≤ 0
  · rw [neg_truncToInt_of_nonpos hv0]
    have f1 := Int.floor_le (-v)
    have f2 := Int.lt_floor_add_one (-v)
    refine fin _ (Int.floor_nonneg.2 (by linarith)) ?_ (by linarith) (by linarith) ?_
    · have : (⌊-v⌋ : K) < (n + 1 : Int) := by push_cast; linarith
      have : ⌊-v⌋ < n + 1 := by exact_mod_cast this
      omega
    · intro hzn
      have : (⌊-v⌋ : K) < n := by linarith
      exact_mod_cast this
  · push Not at hv0
    have : truncToInt v = 0 := by
      rw [truncToInt_of_nonneg hv0.le, Int.floor_eq_iff]
      constructor
      · push_cast; exact hv0.le
      · push_cast; linarith
    rw [this, neg_zero]
    have hn := h.n_pos
    exact fin 0 le_rfl (by omega) (by push_cast; linarith) (by push_cast; linarith) (fun _ => by omega)

/-- A computed cell centre passes the inside test and is found in its cell. -/
theorem centre_cell (h : Axis rd n pos len r T) (hrd : DoublePrecision rd) {u : Int} (hu : 0 ≤ u) (hu' : u < n) :
    0 ≤ fromBorderRd rd (centreRd rd u len pos r) len pos ∧
    fromBorderRd rd (centreRd rd u len pos r) len pos < len ∧
    cellRd rd (centreRd rd u len pos r) len pos r = u := by
  have hc := h.centre_err hrd hu hu'
  have g2 := h.r_pos; have g1 := h.nr_pos
  have hl := h.len_err hrd
  have hun := h.unit; have hu0 := h.unit_nonneg
  have u0 : (0 : K) ≤ r * u := mul_nonneg g2.le (by exact_mod_cast hu)
  have u1 : r * u + r ≤ n * r := by
    have : (u : K) + 1 ≤ n := by exact_mod_cast hu'
    nlinarith
  have hp : |centreRd rd u len pos r - pos| ≤ n * r / 2 + 24 * (T / 2 ^ 53) := by
    rw [abs_le] at hc ⊢; constructor <;> linarith
  have hb := h.border_err hrd (by norm_num) (h.near_le hp)
  have hq := h.quotient_err hrd hp
  have d1 := h.unit_div
  have d0 := h.unit_div_pos
  generalize centreRd rd u len pos r = p at *
  refine ⟨?_, ?_, ?_⟩
  · rw [abs_le] at hb hc; linarith
  · rw [abs_le] at hb hc hl; linarith
  · have hz : |(pos + n * r / 2 - p) / r - (u + 1 / 2)| ≤ 13 * (T / 2 ^ 53 / r) := by
      have e : (pos + n * r / 2 - p) / r - (u + 1 / 2) = -(p - (pos + n * r / 2 - r / 2 - r * u)) / r := by
        field_simp; ring
      rw [e, abs_div, abs_neg, abs_of_pos g2, ← mul_div_assoc]
      exact div_le_div_of_nonneg_right hc g2.le
    have hc : cellRd rd p len pos r = -truncToInt (rd (rd (rd (p - toOriginRd rd len) - pos) / r)) := rfl
    rw [abs_le] at hq hz
    rw [hc]
    have hu0 : (0 : K) ≤ u := by exact_mod_cast hu
    rw [neg_truncToInt_of_nonpos (by linarith), Int.floor_eq_iff]
    constructor <;> linarith

/-- A position well inside passes the inside test. -/
theorem inside_of (h : Axis rd n pos len r T) (hrd : DoublePrecision rd) {p : K}
    (h0 : pos - len / 2 + 32 * (T / 2 ^ 53) ≤ p) (h1 : p ≤ pos + len / 2 - 32 * (T / 2 ^ 53)) :
    0 ≤ fromBorderRd rd p len pos ∧ fromBorderRd rd p len pos < len := by
  have hl := h.len_err hrd
  have g2 := h.r_pos; have g1 := h.nr_pos
  have hun := h.unit; have hu0 := div_pos h.T_pos (show (0 : K) < 2 ^ 53 by positivity)
  rw [abs_le] at hl
  have hp : |p - pos| ≤ n * r / 2 + 24 * (T / 2 ^ 53) := by rw [abs_le]; constructor <;> linarith
  have hb := h.border_err hrd (by norm_num) (h.near_le hp)
  rw [abs_le] at hb
  constructor <;> linarith

end Axis

/-- Rounding to the nearest `double` has a relative error of at most `2^-53`. -/
theorem toDouble_precision : DoublePrecision toDouble := by
  intro x
  have two : (2 : ℚ) ≠ 0 := by norm_num
  by_cases h0 : x = 0
  · subst h0; simp [toDouble, binRound]
  have hn : 0 < x.num.natAbs := Int.natAbs_pos.2 (Rat.num_ne_zero.2 h0)
  have hd' : (0 : ℚ) < x.den := by exact_mod_cast x.den_pos
  have habs : |x| = (x.num.natAbs : ℚ) / x.den := by
    rw [Nat.cast_natAbs]
    conv_lhs => rw [← Rat.num_div_den x]
    rw [abs_div, abs_of_pos hd']
    push_cast
    rfl
  obtain ⟨e1, e2⟩ := binExponent_spec hn x.den_pos
  rw [← habs] at e1 e2
  set e := binExponent x.num.natAbs x.den
  have g1 : (2 : ℚ) ^ ((53 : Nat) - 1 : Int) ≤ |x| * 2 ^ (52 - e) := by
    calc (2 : ℚ) ^ ((53 : Nat) - 1 : Int) = 2 ^ e * 2 ^ (52 - e) := by rw [← zpow_add₀ two]; congr 1; push_cast; ring
      _ ≤ _ := mul_le_mul_of_nonneg_right e1 (two_zpow_pos _).le
  have g2 : |x| * 2 ^ (52 - e) < (2 : ℚ) ^ ((53 : Nat) : Int) := by
    calc _ < (2 : ℚ) ^ (e + 1) * 2 ^ (52 - e) := mul_lt_mul_of_pos_right e2 (two_zpow_pos _)
      _ = _ := by rw [← zpow_add₀ two]; congr 1; push_cast; ring
  have hq := abs_sub_round (|x| * 2 ^ (52 - e))
  have hr := (nearest_of_scaled (p := 53) (by norm_num) g1 g2 hq).1
  set z : ℚ := (round (|x| * 2 ^ (52 - e)) : ℚ) * 2 ^ (-(52 - e)) with hz
  have hu : (0 : ℚ) < 2 ^ (-(52 - e)) := two_zpow_pos _
  have hxz : |x| - z = (|x| * 2 ^ (52 - e) - round (|x| * 2 ^ (52 - e))) * 2 ^ (-(52 - e)) := by
    rw [sub_mul, mul_assoc, ← zpow_add₀ two]; simp [hz]
  have hb : |(|x| - z)| ≤ |x| / 2 ^ 53 := by
    rw [hxz, abs_mul, abs_of_pos hu]
    have h1 : (2 : ℚ) ^ (-(52 - e)) * 2 ^ 52 ≤ |x| := by
      refine le_trans (le_of_eq ?_) e1
      rw [← zpow_natCast, ← zpow_add₀ two]; congr 1; push_cast; ring
    calc _ ≤ 1 / 2 * (2 : ℚ) ^ (-(52 - e)) := mul_le_mul_of_nonneg_right hq hu.le
      _ ≤ _ := by rw [le_div_iff₀ (by positivity)]; linarith
  have best := (binRound_nearest (p := 53) (by norm_num) x).2
  rw [abs_sub_comm]
  rcases le_total 0 x with h | h
  · rw [abs_of_nonneg h] at hb
    have := best z hr
    rw [abs_of_nonneg h]
    exact this.trans hb
  · have := best (-z) hr.neg
    rw [abs_of_nonpos h] at hb ⊢
    refine this.trans ?_
    rwa [show x - -z = -(-x - z) by ring, abs_neg]

/-- One axis of a move: the number of cells is within half a cell of the requested distance, and the new centre is the
old one plus that number of cells, up to rounding. -/
theorem move_axis {rd : K → K} (hrd : DoublePrecision rd) {m p r B : K} (hr : 0 < r) (hB : r ≤ B)
    (hB' : B ≤ 2 ^ 44 * r) (hm : |m| ≤ 2 * B) (hp : |p| ≤ B) :
    ∃ k : Int, indexShift1Rd rd (rd (p - m)) r = -k ∧
      |m + k * r - p| ≤ r / 2 + B / 2 ^ 48 ∧
      |rd (m + rd (((-indexShift1Rd rd (rd (p - m)) r : Int) : K) * r)) - (m + k * r)| ≤ B / 2 ^ 49 ∧
      |rd (m + rd (((-indexShift1Rd rd (rd (p - m)) r : Int) : K) * r)) - p| ≤ r / 2 + B / 2 ^ 47 ∧
      |rd (m + rd (((-indexShift1Rd rd (rd (p - m)) r : Int) : K) * r))| ≤ 2 * B := by
  have hT : (0 : K) ≤ 4 * B := by linarith
  have e0 : 4 * B / 2 ^ 53 = B / 2 ^ 51 := by
    rw [div_eq_div_iff (by positivity) (by positivity)]; ring
  have hm' := abs_le.1 hm
  have hp' := abs_le.1 hp
  have b0 : (0 : K) ≤ B / 2 ^ 51 := div_nonneg (by linarith) (by positivity)
  have b1 : 128 * (B / 2 ^ 51) ≤ r := by
    rw [← mul_div_assoc, div_le_iff₀ (by positivity)]; nlinarith
  -- in units of a cell
  have d0 : 0 ≤ B / 2 ^ 51 / r := div_nonneg b0 hr.le
  have d1 : 128 * (B / 2 ^ 51 / r) ≤ 1 := by rw [← mul_div_assoc, div_le_iff₀ hr]; linarith
  have e1 : 4 * B / r / 2 ^ 53 = B / 2 ^ 51 / r := by rw [div_right_comm, e0]
  have hTr : (0 : K) ≤ 4 * B / r := div_nonneg hT hr.le
  have hs := rd_step1 (x := p - m) (y := p - m) (c := 0) hrd hT (by positivity) (by simp)
    (by rw [abs_le]; constructor <;> linarith)
  rw [e0] at hs
  have hq : |(p - m) / r| ≤ 3 * B / r := by
    rw [abs_div, abs_of_pos hr]
    exact div_le_div_of_nonneg_right (by rw [abs_le]; constructor <;> linarith) hr.le
  have hBr : 1 ≤ B / r := by rw [le_div_iff₀ hr]; linarith
  have hq3 : 3 * B / r = 3 * (B / r) := by ring
  have hq4 : 4 * B / r = 4 * (B / r) := by ring
  have ht := rd_step1 (x := rd (p - m) / r) (y := (p - m) / r) (c := 2) (T := 4 * B / r) hrd hTr (by norm_num)
    (by
      rw [← sub_div, abs_div, abs_of_pos hr, e1, ← mul_div_assoc]
      exact div_le_div_of_nonneg_right (by linarith) hr.le)
    (by linarith)
  rw [e1] at ht
  set q := (p - m) / r with hqd
  set d := B / 2 ^ 51 / r with hd
  set t := rd (rd (p - m) / r) with htd
  have hk : ∃ k : Int, cellsRd rd t = -k ∧ |(k : K) - q| ≤ 1 / 2 + 6 * d := by
    rw [abs_le] at ht hq
    unfold cellsRd
    by_cases h : 0 < t
    · rw [if_pos h]
      have hw := rd_step1 (x := t + 1 / 2 * 1) (y := q + 1 / 2) (c := 4) (T := 4 * B / r) hrd hTr (by norm_num)
        (by rw [e1, abs_le]; constructor <;> linarith) (by rw [abs_le]; constructor <;> linarith)
      rw [e1, abs_le] at hw
      refine ⟨_, rfl, ?_⟩
      rw [truncToInt_of_nonneg (by linarith)]
      have f1 := Int.floor_le (rd (t + 1 / 2 * 1))
      have f2 := Int.lt_floor_add_one (rd (t + 1 / 2 * 1))
      rw [abs_le]; constructor <;> linarith
    · rw [if_neg h]
      have hw := rd_step1 (x := t + 1 / 2 * -1) (y := q - 1 / 2) (c := 4) (T := 4 * B / r) hrd hTr (by norm_num)
        (by rw [e1, abs_le]; constructor <;> linarith) (by rw [abs_le]; constructor <;> linarith)
      rw [e1, abs_le] at hw
      push Not at h
      refine ⟨-⌊-rd (t + 1 / 2 * -1)⌋, by rw [neg_truncToInt_of_nonpos (by linarith), neg_neg], ?_⟩
      have f1 := Int.floor_le (-rd (t + 1 / 2 * -1))
      have f2 := Int.lt_floor_add_one (-rd (t + 1 / 2 * -1))
      push_cast
      rw [abs_le]; constructor <;> linarith
  obtain ⟨k, hk1, hk2⟩ := hk
  have hi : indexShift1Rd rd (rd (p - m)) r = -k := hk1
  have eq : p - m = q * r := by rw [hqd]; field_simp
  have ed : B / 2 ^ 51 = d * r := by rw [hd]; field_simp
  have hkr : |m + k * r - p| ≤ r / 2 + 6 * (B / 2 ^ 51) := by
    have e : m + k * r - p = ((k : K) - q) * r := by rw [sub_mul, ← eq]; ring
    rw [e, abs_mul, abs_of_pos hr, ed]
    nlinarith
  rw [hi, neg_neg]
  have hkr' := abs_le.1 hkr
  have ha := rd_step1 (x := (k : K) * r) (y := k * r) (c := 0) hrd hT (by positivity) (by simp)
    (by rw [abs_le]; constructor <;> linarith)
  rw [e0] at ha
  have hm2 := rd_step1 (x := m + rd ((k : K) * r)) (y := m + k * r) (c := 2) hrd hT (by norm_num)
    (by rw [e0, abs_le]; rw [abs_le] at ha; constructor <;> linarith) (by rw [abs_le]; constructor <;> linarith)
  rw [e0] at hm2
  have n48 : B / 2 ^ 48 = 8 * (B / 2 ^ 51) := by rw [← mul_div_assoc, div_eq_div_iff (by positivity) (by positivity)]; ring
  have n49 : B / 2 ^ 49 = 4 * (B / 2 ^ 51) := by rw [← mul_div_assoc, div_eq_div_iff (by positivity) (by positivity)]; ring
  have n47 : B / 2 ^ 47 = 16 * (B / 2 ^ 51) := by rw [← mul_div_assoc, div_eq_div_iff (by positivity) (by positivity)]; ring
  rw [n48, n49, n47]
  rw [abs_le] at hm2
  refine ⟨k, rfl, by linarith, by rw [abs_le]; constructor <;> linarith, by rw [abs_le]; constructor <;> linarith,
    by rw [abs_le]; constructor <;> linarith⟩

end CostMapModel

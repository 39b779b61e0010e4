import Verif.Lemmas.RoundedMerge
import Verif.Lemmas.Extend

/-!
# Extending in rounded arithmetic
-/

set_option linter.unusedSectionVars false

namespace CostMapModel
open CostMap
variable {K : Type} [Field K] [LinearOrder K] [IsStrictOrderedRing K] [FloorRing K]

/-- A computed border. -/
theorem border_near {rd : K → K} (hrd : DoublePrecision rd) {pos len B : K} (h : |pos| + |len| ≤ B) :
    |rd (pos + rd (len / 2)) - (pos + len / 2)| ≤ 4 * (16 * B / 2 ^ 53) ∧
    |rd (pos - rd (len / 2)) - (pos - len / 2)| ≤ 4 * (16 * B / 2 ^ 53) ∧
    |pos + len / 2| ≤ B ∧ |pos - len / 2| ≤ B := by
  have hB : 0 ≤ B := le_trans (by positivity) h
  have hT : 0 ≤ 16 * B := by linarith
  have p1 := neg_abs_le pos; have p2 := le_abs_self pos; have p0 := abs_nonneg pos
  have l1 := neg_abs_le len; have l2 := le_abs_self len; have l0 := abs_nonneg len
  have b1 : |pos + len / 2| ≤ B := by rw [abs_le]; constructor <;> linarith
  have b2 : |pos - len / 2| ≤ B := by rw [abs_le]; constructor <;> linarith
  have hl := rd_step1 (x := len / 2) (y := len / 2) (c := 0) hrd hT (by positivity) (by simp)
    (by rw [abs_le]; constructor <;> linarith)
  rw [abs_le] at hl
  have e1 := rd_step1 (x := pos + rd (len / 2)) (y := pos + len / 2) (c := 2) hrd hT (by norm_num)
    (by rw [abs_le]; constructor <;> linarith) (by linarith)
  have e2 := rd_step1 (x := pos - rd (len / 2)) (y := pos - len / 2) (c := 2) hrd hT (by norm_num)
    (by rw [abs_le]; constructor <;> linarith) (by linarith)
  exact ⟨by linarith, by linarith, b1, b2⟩

/-- One comparison of borders and the growth of centre and length. -/
theorem grow_near {rd : K → K} (hrd : DoublePrecision rd) {x y X Y p P l L a B : K} (hB : 0 ≤ B)
    (hx : |x - X| ≤ 4 * (16 * B / 2 ^ 53)) (hy : |y - Y| ≤ 4 * (16 * B / 2 ^ 53)) (hX : |X| ≤ B) (hY : |Y| ≤ B)
    (ha : a ≤ 50) (hp : |p - P| ≤ a * (16 * B / 2 ^ 53)) (hl : |l - L| ≤ a * (16 * B / 2 ^ 53))
    (hP : |P| ≤ 4 * B) (hL : |L| ≤ 4 * B) :
    (x < y → |rd (p + rd (rd (y - x) / 2)) - (P + max 0 (Y - X) / 2)| ≤ (a + 13) * (16 * B / 2 ^ 53) ∧
      |rd (p - rd (rd (y - x) / 2)) - (P - max 0 (Y - X) / 2)| ≤ (a + 13) * (16 * B / 2 ^ 53) ∧
      |rd (l + rd (y - x)) - (L + max 0 (Y - X))| ≤ (a + 20) * (16 * B / 2 ^ 53)) ∧
    (¬ x < y → max 0 (Y - X) ≤ 8 * (16 * B / 2 ^ 53)) ∧ 0 ≤ max 0 (Y - X) ∧ max 0 (Y - X) ≤ 2 * B := by
  have hT : 0 ≤ 16 * B := by linarith
  have ε0 : 0 ≤ 16 * B / 2 ^ 53 := div_nonneg hT (by positivity)
  rw [abs_le] at hx hy hX hY hp hl hP hL
  have m0 : 0 ≤ max 0 (Y - X) := le_max_left _ _
  refine ⟨fun hxy => ?_, fun hxy => max_le (by linarith) (by push Not at hxy; linarith), m0,
    max_le (by linarith) (by linarith)⟩
  have mx : |max 0 (Y - X) - (Y - X)| ≤ 8 * (16 * B / 2 ^ 53) := by
    rcases le_total 0 (Y - X) with h0 | h0
    · rw [max_eq_right h0, sub_self, abs_zero]; linarith
    · rw [max_eq_left h0, abs_le]; constructor <;> linarith
  have g := rd_step1 (x := y - x) (y := Y - X) (c := 8) hrd hT (by norm_num)
    (by rw [abs_le]; constructor <;> linarith) (by rw [abs_le]; constructor <;> linarith)
  rw [abs_le] at g mx
  have g' := rd_step1 (x := rd (y - x) / 2) (y := (Y - X) / 2) (c := 5) hrd hT (by norm_num)
    (by rw [abs_le]; constructor <;> linarith) (by rw [abs_le]; constructor <;> linarith)
  rw [abs_le] at g'
  have n50 : (50 : K) + 20 ≤ 2 ^ 53 := by norm_num
  have a1 := rd_step1 (x := p + rd (rd (y - x) / 2)) (y := P + (Y - X) / 2) (c := a + 7) hrd hT (by linarith)
    (by rw [abs_le]; constructor <;> linarith) (by rw [abs_le]; constructor <;> linarith)
  have a2 := rd_step1 (x := p - rd (rd (y - x) / 2)) (y := P - (Y - X) / 2) (c := a + 7) hrd hT (by linarith)
    (by rw [abs_le]; constructor <;> linarith) (by rw [abs_le]; constructor <;> linarith)
  have a3 := rd_step1 (x := l + rd (y - x)) (y := L + (Y - X)) (c := a + 10) hrd hT (by linarith)
    (by rw [abs_le]; constructor <;> linarith) (by rw [abs_le]; constructor <;> linarith)
  rw [abs_le] at a1 a2 a3
  refine ⟨?_, ?_, ?_⟩
  all_goals
    rw [abs_le]
    constructor <;> linarith

/-- One axis of the new centre and length: those of the exact model, up to rounding. -/
theorem extendAxisRd_near {rd : K → K} (hrd : DoublePrecision rd) {pos len pos' len' B : K}
    (h : |pos| + |len| ≤ B) (h' : |pos'| + |len'| ≤ B) :
    |(extendAxisRd rd pos len pos' len').1 - (pos + (over pos len pos' len' - under pos len pos' len') / 2)|
        ≤ 33 * (16 * B / 2 ^ 53) ∧
    |(extendAxisRd rd pos len pos' len').2.1 - (len + over pos len pos' len' + under pos len pos' len')|
        ≤ 40 * (16 * B / 2 ^ 53) ∧
    ((extendAxisRd rd pos len pos' len').2.2 = false →
      extendAxisRd rd pos len pos' len' = (pos, len, false) ∧
      over pos len pos' len' ≤ 8 * (16 * B / 2 ^ 53) ∧ under pos len pos' len' ≤ 8 * (16 * B / 2 ^ 53)) ∧
    over pos len pos' len' ≤ 2 * B ∧ under pos len pos' len' ≤ 2 * B := by
  have hB : 0 ≤ B := le_trans (by positivity) h
  obtain ⟨e1, e2, e3, e4⟩ := border_near hrd h
  obtain ⟨f1, f2, f3, f4⟩ := border_near hrd h'
  have hpos : |pos| ≤ B := by have := abs_nonneg len; linarith
  have hlen : |len| ≤ B := by have := abs_nonneg pos; linarith
  clear h h'
  unfold extendAxisRd over under
  generalize rd (pos + rd (len / 2)) = hi at *
  generalize rd (pos - rd (len / 2)) = lo at *
  generalize rd (pos' + rd (len' / 2)) = hi' at *
  generalize rd (pos' - rd (len' / 2)) = lo' at *
  generalize pos + len / 2 = X at *
  generalize pos - len / 2 = Y at *
  generalize pos' + len' / 2 = X' at *
  generalize pos' - len' / 2 = Y' at *
  obtain ⟨a1, a2, a3, a4⟩ := grow_near (a := 0) (p := pos) (P := pos) (l := len) (L := len) hrd hB e1 f1 e3 f3 (by norm_num)
    (by simp) (by simp) (by linarith) (by linarith)
  have ε0 : 0 ≤ 16 * B / 2 ^ 53 := div_nonneg (by linarith) (by positivity)
  have first : ∃ p l b, (if hi < hi' then (rd (pos + rd (rd (hi' - hi) / 2)), rd (len + rd (hi' - hi)), true)
      else (pos, len, false)) = (p, l, b) ∧ |p - (pos + max 0 (X' - X) / 2)| ≤ 20 * (16 * B / 2 ^ 53) ∧
      |l - (len + max 0 (X' - X))| ≤ 20 * (16 * B / 2 ^ 53) ∧
      (b = false → p = pos ∧ l = len ∧ max 0 (X' - X) ≤ 8 * (16 * B / 2 ^ 53)) := by
    by_cases hb : hi < hi'
    · rw [if_pos hb]
      obtain ⟨c1, -, c3⟩ := a1 hb
      exact ⟨_, _, _, rfl, by linarith, by linarith, by simp⟩
    · rw [if_neg hb]
      have := a2 hb
      refine ⟨_, _, _, rfl, ?_, ?_, fun _ => ⟨rfl, rfl, this⟩⟩
      · rw [abs_le]; constructor <;> linarith
      · rw [abs_le]; constructor <;> linarith
  obtain ⟨p, l, b, e, c1, c2, c3⟩ := first
  dsimp only
  rw [e]
  clear e a1 a2
  rw [abs_le] at hpos hlen
  obtain ⟨b1, b2, b3, b4⟩ := grow_near (a := 20) (p := p) (P := pos + max 0 (X' - X) / 2) (l := l)
    (L := len + max 0 (X' - X)) hrd hB f2 e2 f4 e4 (by norm_num) c1 c2
    (by rw [abs_le]; constructor <;> linarith) (by rw [abs_le]; constructor <;> linarith)
  dsimp only
  refine ⟨?_, ?_, ?_, a4, b4⟩
  · by_cases hb : lo' < lo
    · rw [if_pos hb]
      obtain ⟨-, d2, -⟩ := b1 hb
      rw [show pos + (max 0 (X' - X) - max 0 (Y - Y')) / 2 = pos + max 0 (X' - X) / 2 - max 0 (Y - Y') / 2 by ring]
      linarith
    · rw [if_neg hb]
      have := b2 hb
      rw [abs_le] at c1 ⊢
      constructor <;> linarith
  · by_cases hb : lo' < lo
    · rw [if_pos hb]
      obtain ⟨-, -, d3⟩ := b1 hb
      linarith
    · rw [if_neg hb]
      have := b2 hb
      rw [abs_le] at c2 ⊢
      constructor <;> linarith
  · by_cases hb : lo' < lo
    · rw [if_pos hb]; simp
    · rw [if_neg hb]
      intro hbf
      dsimp only at hbf
      obtain ⟨rfl, rfl, h3⟩ := c3 hbf
      exact ⟨by rw [hbf], h3, b2 hb⟩

/-- The remainder of a division by a positive number. -/
theorem fmod_lt {d r : K} (hr : 0 < r) :
    |fmod d r| < r ∧ (0 ≤ d → fmod d r = d - ⌊d / r⌋ * r) ∧ |(truncToInt (d / r) : K) * r| ≤ |d| := by
  have ez : d = d / r * r := by field_simp
  unfold fmod
  by_cases h0 : 0 ≤ d
  · have h1 : 0 ≤ d / r := div_nonneg h0 hr.le
    rw [truncToInt_of_nonneg h1]
    have f1 := Int.floor_le (d / r)
    have f2 := Int.lt_floor_add_one (d / r)
    have f0 : (0 : K) ≤ ⌊d / r⌋ := by exact_mod_cast Int.floor_nonneg.2 h1
    have g1 : (⌊d / r⌋ : K) * r ≤ d := by rw [← le_div_iff₀ hr]; exact f1
    have g2 : d < (⌊d / r⌋ + 1 : K) * r := by rw [← div_lt_iff₀ hr]; exact f2
    refine ⟨?_, fun _ => rfl, ?_⟩
    · rw [abs_of_nonneg (by linarith)]; linarith
    · rw [abs_of_nonneg (mul_nonneg f0 hr.le), abs_of_nonneg h0]; exact g1
  · push Not at h0
    have h1 : d / r < 0 := div_neg_of_neg_of_pos h0 hr
    have ht : truncToInt (d / r) = -⌊-(d / r)⌋ := by unfold truncToInt; rw [if_neg (not_le.mpr h1)]
    rw [ht]
    have f1 := Int.floor_le (-(d / r))
    have f2 := Int.lt_floor_add_one (-(d / r))
    have f0 : (0 : K) ≤ ⌊-(d / r)⌋ := by exact_mod_cast Int.floor_nonneg.2 (by linarith)
    have g1 : (⌊-(d / r)⌋ : K) * r ≤ -d := by
      rw [← le_div_iff₀ hr, neg_div]; exact f1
    have g2 : -d < (⌊-(d / r)⌋ + 1 : K) * r := by
      rw [← div_lt_iff₀ hr, neg_div]; exact f2
    push_cast
    refine ⟨?_, fun h => absurd h (not_le.2 h0), ?_⟩
    · rw [abs_lt]; constructor <;> linarith
    · rw [neg_mul, abs_neg, abs_of_nonneg (mul_nonneg f0 hr.le), abs_of_neg h0]; exact g1

/-- One axis of the alignment: the new centre is a whole number of half cells from the old one, up to rounding, and the
number has the parity of the growth. When the centre has moved up by about a whole number of cells and the parity of
the size is unchanged, it is that number. -/
theorem alignAxisRd_near {rd : K → K} (hrd : DoublePrecision rd) {r p c B : K} {N n : Int} (hr : 0 < r) (hrB : r ≤ B)
    (hB : B ≤ 2 ^ 39 * r) (hp : |p| ≤ 3 * B) (hc : |c| ≤ B) (hN : 0 ≤ N) (hn : 0 ≤ n) :
    ∃ h : Int, |alignAxisRd rd r p c N n - (c + h * r / 2)| ≤ 10 * (16 * B / 2 ^ 53) ∧ (h - (N - n)) % 2 = 0 ∧
      |(h : K) * r / 2| ≤ 7 * B ∧
      ∀ j : Int, 0 ≤ j → |p - c - j * r| ≤ r / 4 → N % 2 = n % 2 → h = 2 * j := by
  have hT : 0 ≤ 16 * B := by linarith
  have hp' := abs_le.1 hp
  have hc' := abs_le.1 hc
  set ε := 16 * B / 2 ^ 53 with hε
  have ε0 : 0 ≤ ε := div_nonneg hT (by positivity)
  have ε1 : 1024 * ε ≤ r := by
    rw [hε, ← mul_div_assoc, div_le_iff₀ (by positivity)]
    nlinarith
  have hd := rd_step1 (x := p - c) (y := p - c) (c := 0) hrd hT (by positivity) (by simp)
    (by rw [abs_le]; constructor <;> linarith)
  have hh := rd_step1 (x := r / 2) (y := r / 2) (c := 0) hrd hT (by positivity) (by simp)
    (by rw [abs_le]; constructor <;> linarith)
  rw [abs_le] at hd hh
  unfold alignAxisRd
  set d := rd (p - c) with hdd
  set g := rd (r / 2) with hg
  obtain ⟨s1, s2, s3⟩ := fmod_lt (d := d) hr
  have s4 : fmod d r = d - (truncToInt (d / r) : K) * r := rfl
  have hd4 : |d| ≤ 5 * B := by rw [abs_le]; constructor <;> linarith
  set s := fmod d r with hs
  set k := truncToInt (d / r) with hk
  have s3' := abs_le.1 (s3.trans hd4)
  have s1' := abs_lt.1 s1
  dsimp only
  -- the whole cells
  have whole : ∃ w : Int, |(if |s| < g then rd (p - s) else rd (p + rd (r - s))) - (c + w * r)| ≤ 6 * ε ∧
      |(w : K) * r| ≤ 6 * B ∧ ∀ j : Int, 0 ≤ j → |p - c - j * r| ≤ r / 4 → w = j := by
    by_cases hb : |s| < g
    · rw [if_pos hb]
      have a := rd_step1 (x := p - s) (y := c + k * r) (c := 2) hrd hT (by norm_num)
        (by rw [abs_le]; constructor <;> linarith) (by rw [abs_le]; constructor <;> linarith)
      refine ⟨k, by linarith, by rw [abs_le]; constructor <;> linarith, fun j hj hjr => ?_⟩
      have hb' := abs_lt.1 hb
      rw [abs_le] at hjr
      have b1 : ((k - j : Int) : K) * r < 1 * r := by push_cast; rw [sub_mul]; linarith
      have b2 : ((j - k : Int) : K) * r < 1 * r := by push_cast; rw [sub_mul]; linarith
      have b1' := lt_of_mul_lt_mul_right b1 hr.le
      have b2' := lt_of_mul_lt_mul_right b2 hr.le
      have : k - j < 1 := by exact_mod_cast b1'
      have : j - k < 1 := by exact_mod_cast b2'
      omega
    · rw [if_neg hb]
      push Not at hb
      have a0 := rd_step1 (x := r - s) (y := r - s) (c := 0) hrd hT (by positivity) (by simp)
        (by rw [abs_le]; constructor <;> linarith)
      rw [abs_le] at a0
      have a := rd_step1 (x := p + rd (r - s)) (y := c + (k + 1) * r) (c := 4) hrd hT (by norm_num)
        (by rw [abs_le]; constructor <;> linarith) (by rw [abs_le]; constructor <;> linarith)
      refine ⟨k + 1, by push_cast; linarith, by push_cast; rw [abs_le]; constructor <;> linarith, fun j hj hjr => ?_⟩
      rw [abs_le] at hjr
      have hj0 : (0 : K) ≤ j := by exact_mod_cast hj
      have hjr0 : 0 ≤ (j : K) * r := mul_nonneg hj0 hr.le
      -- the shift is not negative, else it would be far below half a cell
      have hd0 : 0 ≤ d := by
        by_contra hn
        push Not at hn
        have ht : k = -⌊-(d / r)⌋ := by
          rw [hk]; unfold truncToInt; rw [if_neg (not_le.mpr (div_neg_of_neg_of_pos hn hr))]
        have hfl : ⌊-(d / r)⌋ = 0 := by
          rw [Int.floor_eq_iff, ← neg_div]
          constructor
          · push_cast; exact div_nonneg (by linarith) hr.le
          · push_cast; rw [div_lt_iff₀ hr]; linarith
        rw [hfl, neg_zero] at ht
        rw [ht] at s4
        push_cast at s4
        have : s = d := by linarith
        rw [this, abs_of_neg hn] at hb
        linarith
      have hk0 : k = ⌊d / r⌋ := by rw [hk, truncToInt_of_nonneg (div_nonneg hd0 hr.le)]
      have s0 : 0 ≤ s := by
        have := Int.floor_le (d / r)
        rw [← hk0, le_div_iff₀ hr] at this
        linarith
      rw [abs_of_nonneg s0] at hb
      have b1 : ((k + 1 - j : Int) : K) * r < 1 * r := by
        push_cast; rw [sub_mul, add_mul]; linarith
      have b2 : ((j - (k + 1) : Int) : K) * r < 1 * r := by
        push_cast; rw [sub_mul, add_mul]; linarith
      have b1' := lt_of_mul_lt_mul_right b1 hr.le
      have b2' := lt_of_mul_lt_mul_right b2 hr.le
      have : k + 1 - j < 1 := by exact_mod_cast b1'
      have : j - (k + 1) < 1 := by exact_mod_cast b2'
      omega
  obtain ⟨w, w1, w2, w3⟩ := whole
  generalize (if |s| < g then rd (p - s) else rd (p + rd (r - s))) = q at w1
  rw [abs_le] at w1 w2
  rw [if_congr (tmod_two N n hN hn) rfl rfl]
  by_cases hpar : N % 2 ≠ n % 2
  · rw [if_pos hpar]
    by_cases hneg : d < 0
    · rw [if_pos hneg]
      have a := rd_step1 (x := q + -(-g)) (y := c + (2 * w + 1) * r / 2) (c := 8) hrd hT (by norm_num)
        (by rw [abs_le]; constructor <;> linarith) (by rw [abs_le]; constructor <;> linarith)
      refine ⟨2 * w + 1, by push_cast; linarith, by omega, by push_cast; rw [abs_le]; constructor <;> linarith,
        fun j _ _ h => absurd h hpar⟩
    · rw [if_neg hneg]
      have a := rd_step1 (x := q + -g) (y := c + (2 * w - 1) * r / 2) (c := 8) hrd hT (by norm_num)
        (by rw [abs_le]; constructor <;> linarith) (by rw [abs_le]; constructor <;> linarith)
      refine ⟨2 * w - 1, by push_cast; linarith, by omega, by push_cast; rw [abs_le]; constructor <;> linarith,
        fun j _ _ h => absurd h hpar⟩
  · rw [if_neg hpar]
    refine ⟨2 * w, by push_cast; rw [abs_le]; constructor <;> linarith, by omega,
      by push_cast; rw [abs_le]; constructor <;> linarith, fun j hj hjr _ => ?_⟩
    rw [w3 j hj hjr]

set_option maxHeartbeats 800000 in
/-- One axis of the whole extension: it never shrinks, stays on the grid of the old map up to rounding, and is as expected
when the other map sticks out by about whole numbers of cells, `a` above and `b` below, with `a - b` even and not
negative. -/
theorem extend_axis {rd : K → K} (hrd : DoublePrecision rd) {pos len pos' len' r B : K} {n : Int} (hr : 0 < r)
    (hn : 1 ≤ n) (hlen : len = rd ((n : K) * r)) (hB : B ≤ 2 ^ 39 * r) (h : |pos| + |len| + r ≤ B)
    (h' : |pos'| + |len'| + r ≤ B) {p l : K} {b : Bool} (he : extendAxisRd rd pos len pos' len' = (p, l, b)) {N : Int}
    (hN : N = roundHalfAway (rd (l / r))) :
    0 < l ∧ n ≤ N ∧
      (∃ k : Int, |(pos + n * r / 2) - (alignAxisRd rd r p pos N n + N * r / 2) - k * r| ≤ B / 2 ^ 45 ∧
        ∀ a b : Int, 0 ≤ b → b ≤ a → (a - b) % 2 = 0 → |over pos len pos' len' - a * r| ≤ r / 16 →
          |under pos len pos' len' - b * r| ≤ r / 16 → N = n + a + b ∧ k = -a) ∧
      |alignAxisRd rd r p pos N n| + ((N : K) + 1) * r ≤ 16 * B := by
  have hB0 : 0 ≤ B := by have := abs_nonneg pos; have := abs_nonneg len; linarith
  obtain ⟨g1, g2, -, g4, g5⟩ := extendAxisRd_near hrd (B := B) (by linarith : |pos| + |len| ≤ B)
    (by linarith : |pos'| + |len'| ≤ B)
  rw [he] at g1 g2
  dsimp only at g1 g2
  have o0 : 0 ≤ over pos len pos' len' := over_nonneg _ _ _ _
  have u0 : 0 ≤ under pos len pos' len' := under_nonneg _ _ _ _
  generalize over pos len pos' len' = o at *
  generalize under pos len pos' len' = u at *
  have hT : 0 ≤ 16 * B := by linarith
  have n45 : B / 2 ^ 45 = 16 * (16 * B / 2 ^ 53) := by
    rw [← mul_div_assoc, div_eq_div_iff (by positivity) (by positivity)]; ring
  have ε0 : 0 ≤ 16 * B / 2 ^ 53 := div_nonneg hT (by positivity)
  have ε1 : 1024 * (16 * B / 2 ^ 53) ≤ r := by
    rw [← mul_div_assoc, div_le_iff₀ (by positivity)]
    nlinarith
  rw [n45]
  have hn' : (1 : K) ≤ n := by exact_mod_cast hn
  have nr : r ≤ n * r := by nlinarith
  have p0 := abs_nonneg pos
  have l0 := abs_nonneg len
  have ll := le_abs_self len
  have pp := neg_abs_le pos
  have pp' := le_abs_self pos
  have nr' : (n : K) * r ≤ 2 * B := by
    have := rd_lower hrd ((n : K) * r)
    rw [← hlen, abs_of_nonneg (by linarith)] at this
    linarith
  have hl : |len - n * r| ≤ 2 * (16 * B / 2 ^ 53) := by
    have := rd_step1 (x := (n : K) * r) (y := n * r) (c := 0) hrd hT (by positivity) (by simp)
      (by rw [abs_of_nonneg (by linarith)]; linarith)
    rw [hlen]; linarith
  obtain ⟨ε, hε⟩ : ∃ ε, ε = 16 * B / 2 ^ 53 := ⟨_, rfl⟩
  rw [← hε] at g1 g2 hl ε0 ε1 n45 ⊢
  rw [abs_le] at g1 g2 hl
  have lpos : 0 < l := by linarith
  -- the number of cells
  have cellsOf : ∀ M : Int, 1 ≤ M → M ≤ 2 ^ 47 → |l - M * r| ≤ r / 4 → N = M := by
    intro M h1 h2 h3
    rw [hN]
    refine cells_axis hrd h1 h2 ?_
    have e : l / r - M = (l - M * r) / r := by field_simp
    rw [e, abs_div, abs_of_pos hr, div_le_iff₀ hr]
    linarith
  have e := hrd (l / r)
  have lr0 : 0 < l / r := div_pos lpos hr
  rw [abs_of_pos lr0, abs_le] at e
  have lr : l / r / 2 ^ 53 ≤ 1 / 1024 := by
    rw [div_le_iff₀ (by positivity), div_le_iff₀ hr]
    nlinarith
  have hx : 0 ≤ rd (l / r) := by
    have : l / r / 2 ^ 53 ≤ l / r := div_le_self lr0.le (by norm_num)
    linarith
  have hNr : ((N : K) - 1 / 2 ≤ rd (l / r)) ∧ rd (l / r) < N + 1 / 2 := by
    rw [← round_eq_iff hx]; exact hN.symm
  have lrn : (n : K) - 1 / 4 ≤ l / r := by
    rw [le_div_iff₀ hr, sub_mul]; linarith
  have nN : n ≤ N := by
    have : (n : K) < (N + 1 : Int) := by push_cast; linarith
    have : n < N + 1 := by exact_mod_cast this
    omega
  have NrB : (N : K) * r ≤ 6 * B := by
    have h1 : (N : K) ≤ l / r + 3 / 4 := by linarith
    have h2 := mul_le_mul_of_nonneg_right h1 hr.le
    have h3 : l / r * r = l := by field_simp
    rw [add_mul, h3] at h2
    linarith
  have hp3 : |p| ≤ 3 * B := by rw [abs_le]; constructor <;> linarith
  obtain ⟨t, t1, t2, t3, t4⟩ := alignAxisRd_near hrd (r := r) (p := p) (c := pos) (N := N) (n := n) hr (by linarith) hB hp3
    (by linarith) (by omega) (by omega)
  obtain ⟨w, hw⟩ : ∃ w : Int, t + (N - n) = 2 * w := ⟨(t + (N - n)) / 2, by omega⟩
  have hw' : (t : K) + (N - n) = 2 * w := by exact_mod_cast hw
  rw [← hε] at t1
  have hwr : (t : K) * r / 2 + (N : K) * r / 2 - n * r / 2 = w * r := by linear_combination (r / 2) * hw'
  refine ⟨lpos, nN, ⟨-w, ?_, ?_⟩, ?_⟩
  · push_cast
    rw [abs_le] at t1 ⊢
    constructor <;> linarith
  · intro a b hb hab hev ha' hb'
    rw [abs_le] at ha' hb'
    have hM : N = n + a + b := by
      refine cellsOf _ (by omega) ?_ ?_
      · have : ((n + a + b : Int) : K) * r ≤ (2 ^ 47 : Int) * r := by
          push_cast
          rw [add_mul, add_mul]
          have h7 : 8 * B ≤ 2 ^ 47 * r := by linarith only [hB, hr]
          linarith only [h7, nr', ha', hb', g4, g5, hr, h, p0, l0]
        exact_mod_cast le_of_mul_le_mul_right this hr
      · push_cast; rw [abs_le]; constructor <;> linarith
    refine ⟨hM, ?_⟩
    have hj : t = 2 * ((a - b) / 2) := by
      refine t4 ((a - b) / 2) (by omega) ?_ (by omega)
      have ej : (((a - b) / 2 : Int) : K) * 2 = a - b := by exact_mod_cast (by omega : (a - b) / 2 * 2 = a - b)
      have ejr : (((a - b) / 2 : Int) : K) * r = (a * r - b * r) / 2 := by linear_combination (r / 2) * ej
      rw [ejr, abs_le]
      constructor <;> linarith
    omega
  · rw [abs_le] at t1 t3
    have : |alignAxisRd rd r p pos N n| ≤ 9 * B := by
      rw [abs_le]; constructor <;> linarith
    rw [add_mul]
    linarith

end CostMapModel

import Verif.Model.Spiral
import Verif.Spec.Ring
import Verif.Lemmas.Iteration

/-! # The walk around a ring -/

namespace CostMapModel

theorem normIs_iff {d : Nat} {x y : Int} : normIs d x y = true ↔ InAnnulus d ⟨x, y⟩ := by
  unfold normIs InAnnulus
  rw [decide_eq_true_eq]
  have hn : 0 ≤ x * x + y * y := by nlinarith [sq_nonneg x, sq_nonneg y]
  obtain ⟨n, hn'⟩ := Int.eq_ofNat_of_zero_le hn
  have e : x ^ 2 + y ^ 2 = (n : Int) := by rw [← hn']; ring
  simp only [e, hn', Int.toNat_natCast]
  constructor
  · intro h
    have h1 := Nat.sqrt_le' n
    have h2 := Nat.lt_succ_sqrt' n
    rw [h] at h1 h2
    exact ⟨by exact_mod_cast h1, by exact_mod_cast h2⟩
  · rintro ⟨h1, h2⟩
    have h1' : d ^ 2 ≤ n := by exact_mod_cast h1
    have h2' : n < (d + 1) ^ 2 := by exact_mod_cast h2
    exact (Nat.eq_sqrt'.mpr ⟨h1', h2'⟩).symm

/-- From `p` the walk goes through `xs` and then is at `q`. -/
def Walk (d : Nat) : Idx → List Idx → Idx → Prop
  | p, [], q => p = q
  | p, x :: xs, q => x = p ∧ Walk d (ringStep d p) xs q

theorem Walk.append {d : Nat} {p q r : Idx} {xs ys : List Idx} (h1 : Walk d p xs q) (h2 : Walk d q ys r) :
    Walk d p (xs ++ ys) r := by
  induction xs generalizing p with
  | nil => cases h1; exact h2
  | cons x xs ih => exact ⟨h1.1, ih h1.2⟩

theorem Walk.one {d : Nat} {p q : Idx} (h : ringStep d p = q) : Walk d p [p] q := ⟨rfl, h⟩

theorem Walk.head {d : Nat} {p q : Idx} {x : Idx} {xs : List Idx} (h : Walk d p (x :: xs) q) : x = p := h.1

section Steps
variable {d : Nat}

theorem step_q1 {x y : Int} (hx : 0 < x) (hy : 0 < y) : ringStep d ⟨x, y⟩ =
    if InAnnulus d ⟨x - 1, y⟩ then ⟨x - 1, y⟩ else if InAnnulus d ⟨x, y + 1⟩ then ⟨x, y + 1⟩ else ⟨x - 1, y + 1⟩ := by
  have e1 : signum y = 1 := by simp only [signum, hy, if_true, if_neg (by omega : ¬ y < 0)]; rfl
  have e2 : signum x = 1 := by simp only [signum, hx, if_true, if_neg (by omega : ¬ x < 0)]; rfl
  simp only [ringStep, e1, e2, normIs_iff]
  simp [← sub_eq_add_neg]

theorem step_q2 {x y : Int} (hx : x < 0) (hy : 0 < y) : ringStep d ⟨x, y⟩ =
    if InAnnulus d ⟨x - 1, y⟩ then ⟨x - 1, y⟩ else if InAnnulus d ⟨x, y - 1⟩ then ⟨x, y - 1⟩ else ⟨x - 1, y - 1⟩ := by
  have e1 : signum y = 1 := by simp only [signum, hy, if_true, if_neg (by omega : ¬ y < 0)]; rfl
  have e2 : signum x = -1 := by simp only [signum, hx, if_true, if_neg (by omega : ¬ 0 < x)]; rfl
  simp only [ringStep, e1, e2, normIs_iff]
  simp [← sub_eq_add_neg]

theorem step_x0 {y : Int} (hy : 0 < y) : ringStep d ⟨0, y⟩ = ⟨-1, y⟩ := by
  have e1 : signum y = 1 := by simp only [signum, hy, if_true, if_neg (by omega : ¬ y < 0)]; rfl
  have e2 : signum 0 = 0 := rfl
  simp only [ringStep, e1, e2]
  simp

theorem step_y0 {x : Int} (hx : 0 < x) : ringStep d ⟨x, 0⟩ = ⟨x, 1⟩ := by
  have e1 : signum x = 1 := by simp only [signum, hx, if_true, if_neg (by omega : ¬ x < 0)]; rfl
  have e2 : signum 0 = 0 := rfl
  simp only [ringStep, e1, e2]
  simp

theorem signum_neg (v : Int) : signum (-v) = -signum v := by
  unfold signum
  split <;> split <;> split <;> split <;> omega

theorem normIs_neg (x y : Int) : normIs d (-x) (-y) = normIs d x y := by
  unfold normIs; simp

theorem step_neg (p : Idx) : ringStep d ⟨-p.x, -p.y⟩ = ⟨-(ringStep d p).x, -(ringStep d p).y⟩ := by
  simp only [ringStep, signum_neg]
  have a1 : normIs d (-p.x + - -signum p.y) (-p.y) = normIs d (p.x + -signum p.y) p.y := by
    rw [← normIs_neg]; congr 1 <;> ring
  have a2 : normIs d (-p.x) (-p.y + -signum p.x) = normIs d p.x (p.y + signum p.x) := by
    rw [← normIs_neg]; congr 1 <;> ring
  rw [a1, a2]
  have b1 : (- -signum p.y ≠ 0) ↔ (-signum p.y ≠ 0) := by omega
  have b2 : (-signum p.x ≠ 0) ↔ (signum p.x ≠ 0) := by omega
  simp only [b1, b2]
  split
  · ext
    · simp only; ring
    · rfl
  · split
    · ext
      · rfl
      · simp only; ring
    · ext <;> simp only <;> ring

end Steps

/-- Negation of an offset. -/
def negIdx (p : Idx) : Idx := ⟨-p.x, -p.y⟩

theorem negIdx_negIdx (p : Idx) : negIdx (negIdx p) = p := by simp [negIdx]

theorem Walk.neg {d : Nat} {p q : Idx} {xs : List Idx} (h : Walk d p xs q) :
    Walk d (negIdx p) (xs.map negIdx) (negIdx q) := by
  induction xs generalizing p with
  | nil => cases h; rfl
  | cons x xs ih =>
    refine ⟨by rw [h.1], ?_⟩
    have := ih h.2
    rw [show ringStep d (negIdx p) = negIdx (ringStep d p) from step_neg p]
    exact this

theorem inAnnulus_neg {d : Nat} {p : Idx} : InAnnulus d (negIdx p) ↔ InAnnulus d p := by
  unfold InAnnulus negIdx; simp

section Rows
variable {d : Nat}

/-- One row of the first quadrant, from right to left. -/
theorem row_q1 {y : Int} (hy : 0 < y) (hyd : y < d) (x : Nat) (hA : InAnnulus d ⟨x, y⟩) :
    ∃ xs q, Walk d ⟨x, y⟩ xs q ∧ xs.Nodup ∧
      (∀ z : Idx, z ∈ xs ↔ InAnnulus d z ∧ z.y = y ∧ 0 ≤ z.x ∧ z.x ≤ x) ∧
      InAnnulus d q ∧ q.y = y + 1 ∧ 0 ≤ q.x ∧ (∀ t, InAnnulus d ⟨t, y + 1⟩ → 0 ≤ t → t ≤ q.x) := by
  induction x with
  | zero =>
    exfalso
    have := hA.1
    simp only [Nat.cast_zero] at this
    nlinarith
  | succ x ih =>
    have hx0 : (0 : Int) < ((x + 1 : Nat) : Int) := by push_cast; omega
    have hs := step_q1 (d := d) hx0 hy
    have hx1 : ((x + 1 : Nat) : Int) - 1 = x := by push_cast; ring
    rw [hx1] at hs
    by_cases hL : InAnnulus d ⟨x, y⟩
    · rw [if_pos hL] at hs
      obtain ⟨xs, q, w, nd, mem, hq⟩ := ih hL
      refine ⟨⟨(x + 1 : Nat), y⟩ :: xs, q, ⟨rfl, by rw [hs]; exact w⟩, ?_, ?_, hq⟩
      · rw [List.nodup_cons]
        refine ⟨?_, nd⟩
        rw [mem]
        rintro ⟨-, -, -, h⟩
        simp only at h
        push_cast at h
        omega
      · intro z
        rw [List.mem_cons, mem]
        constructor
        · rintro (rfl | ⟨h1, h2, h3, h4⟩)
          · exact ⟨hA, rfl, by simp only; omega, le_refl _⟩
          · exact ⟨h1, h2, h3, by push_cast; omega⟩
        · rintro ⟨h1, h2, h3, h4⟩
          by_cases hz : z.x = ((x + 1 : Nat) : Int)
          · left; exact Idx.ext hz h2
          · right; exact ⟨h1, h2, h3, by push_cast at h4 hz; omega⟩
    · rw [if_neg hL] at hs
      obtain ⟨hA1, hA2⟩ := hA
      push_cast at hA1 hA2
      -- the point to the left is below the annulus
      have hlow : (x : Int) ^ 2 + y ^ 2 < (d : Int) ^ 2 := by
        by_contra hc
        apply hL
        refine ⟨not_lt.mp hc, ?_⟩
        simp only
        nlinarith
      have hmem : ∀ z : Idx, z ∈ [(⟨(x + 1 : Nat), y⟩ : Idx)] ↔
          InAnnulus d z ∧ z.y = y ∧ 0 ≤ z.x ∧ z.x ≤ ((x + 1 : Nat) : Int) := by
        intro z
        rw [List.mem_singleton]
        constructor
        · rintro rfl
          exact ⟨⟨by push_cast; exact hA1, by push_cast; exact hA2⟩, rfl, by simp only; omega, le_refl _⟩
        · rintro ⟨h1, h2, h3, h4⟩
          by_cases hz : z.x = ((x + 1 : Nat) : Int)
          · exact Idx.ext hz h2
          · exfalso
            push_cast at h4 hz
            have hzx : z.x ≤ x := by omega
            have := h1.1
            rw [h2] at this
            nlinarith
      have hsum : (d : Int) ≤ (x + 1) + y := by nlinarith
      by_cases hU : InAnnulus d ⟨(x + 1 : Nat), y + 1⟩
      · rw [if_pos hU] at hs
        refine ⟨_, _, Walk.one hs, by simp, hmem, hU, rfl, by simp only; omega, ?_⟩
        intro t ht ht0
        simp only
        push_cast
        by_contra hc
        have h2 := ht.2
        simp only at h2
        have : (x : Int) + 2 ≤ t := by omega
        nlinarith
      · rw [if_neg hU] at hs
        have hup : ((d : Int) + 1) ^ 2 ≤ ((x : Int) + 1) ^ 2 + (y + 1) ^ 2 := by
          by_contra hc
          apply hU
          refine ⟨?_, ?_⟩
          · simp only; push_cast; nlinarith
          · simp only; push_cast; exact not_le.mp hc
        have hxd : (x : Int) + 1 ≤ d := by
          by_contra hc
          have : (d : Int) + 1 ≤ x + 1 := by omega
          nlinarith
        refine ⟨_, _, Walk.one hs, by simp, hmem, ?_, rfl, by simp only; omega, ?_⟩
        · refine ⟨?_, ?_⟩
          · simp only; nlinarith
          · simp only; nlinarith
        · intro t ht ht0
          simp only
          by_contra hc
          have h2 := ht.2
          simp only at h2
          have : (x : Int) + 1 ≤ t := by omega
          nlinarith

/-- The rows of the first quadrant below the top one. -/
theorem rows_q1 (n : Nat) : ∀ (x y : Int), y + n = d → 0 < y → 0 ≤ x → InAnnulus d ⟨x, y⟩ →
    (∀ t, InAnnulus d ⟨t, y⟩ → 0 ≤ t → t ≤ x) →
    ∃ xs q, Walk d ⟨x, y⟩ xs q ∧ xs.Nodup ∧
      (∀ z : Idx, z ∈ xs ↔ InAnnulus d z ∧ y ≤ z.y ∧ z.y < d ∧ 0 ≤ z.x) ∧
      InAnnulus d q ∧ q.y = d ∧ 0 ≤ q.x ∧ (∀ t, InAnnulus d ⟨t, d⟩ → 0 ≤ t → t ≤ q.x) := by
  induction n with
  | zero =>
    intro x y hyd hy hx hA ht
    have e : y = d := by simpa using hyd
    subst e
    refine ⟨[], ⟨x, d⟩, rfl, List.nodup_nil, ?_, hA, rfl, hx, ht⟩
    intro z
    constructor
    · intro h; cases h
    · rintro ⟨-, h1, h2, -⟩; omega
  | succ n ih =>
    intro x y hyd hy hx hA ht
    obtain ⟨k, rfl⟩ := Int.eq_ofNat_of_zero_le hx
    obtain ⟨xs, q, w, nd, mem, hqA, hqy, hqx, hqt⟩ := row_q1 hy (by push_cast at hyd; omega) k hA
    obtain ⟨ys, r, w2, nd2, mem2, hr⟩ := ih q.x (y + 1) (by push_cast at hyd; omega) (by omega) hqx
      (by rw [← hqy]; exact hqA) hqt
    have hq : q = ⟨q.x, y + 1⟩ := Idx.ext rfl hqy
    rw [hq] at w
    refine ⟨xs ++ ys, r, w.append w2, ?_, ?_, hr⟩
    · rw [List.nodup_append]
      refine ⟨nd, nd2, ?_⟩
      intro a ha b hb hab
      subst hab
      have h1 := ((mem a).mp ha).2.1
      have h2 := ((mem2 a).mp hb).2.1
      omega
    · intro z
      rw [List.mem_append, mem, mem2]
      constructor
      · rintro (⟨h1, h2, h3, h4⟩ | ⟨h1, h2, h3, h4⟩)
        · exact ⟨h1, by omega, by push_cast at hyd; omega, h3⟩
        · exact ⟨h1, by omega, h3, h4⟩
      · rintro ⟨h1, h2, h3, h4⟩
        by_cases hz : z.y = y
        · left
          refine ⟨h1, hz, h4, ht z.x ?_ h4⟩
          rw [← hz]; exact h1
        · right; exact ⟨h1, by omega, h3, h4⟩

/-- A row from `(x, y)` to the left end, in the top row or in the second quadrant. -/
theorem row_q2 (n : Nat) : ∀ (x y : Int), x + d = n → 0 < y → y ≤ d → (x < 0 ∨ y = d) → InAnnulus d ⟨x, y⟩ →
    ∃ xs q, Walk d ⟨x, y⟩ xs q ∧ xs.Nodup ∧
      (∀ z : Idx, z ∈ xs ↔ InAnnulus d z ∧ z.y = y ∧ z.x ≤ x) ∧
      InAnnulus d q ∧ q.y = y - 1 ∧ q.x < 0 ∧ (∀ t, InAnnulus d ⟨t, y - 1⟩ → t < 0 → t ≤ q.x) := by
  induction n with
  | zero =>
    intro x y hxn hy hyd hxy hA
    -- at the leftmost column: the point is (-d, y)
    have hx : x = -d := by simpa using eq_neg_of_add_eq_zero_left hxn
    obtain ⟨hA1, hA2⟩ := hA
    simp only at hA1 hA2
    rw [hx] at hA1 hA2
    have hd : (0 : Int) < d := by omega
    have hs := step_q2 (d := d) (x := -d) (y := y) (by omega) hy
    rw [if_neg (by rintro ⟨-, h⟩; simp only at h; nlinarith), if_pos (by
      refine ⟨?_, ?_⟩ <;> simp only <;> nlinarith)] at hs
    subst hx
    refine ⟨_, _, Walk.one hs, by simp, ?_, ?_, rfl, by simp only; omega, ?_⟩
    · intro z
      rw [List.mem_singleton]
      constructor
      · rintro rfl; exact ⟨⟨by simp only; exact hA1, by simp only; exact hA2⟩, rfl, le_refl _⟩
      · rintro ⟨h1, h2, h3⟩
        have h4 := h1.2
        refine Idx.ext ?_ h2
        simp only
        by_contra hc
        have : z.x ≤ -d - 1 := by omega
        nlinarith
    · refine ⟨?_, ?_⟩ <;> simp only <;> nlinarith
    · intro t ht ht0
      simp only
      by_contra hc
      have h1 := ht.1
      simp only at h1
      have h5 : -(d : Int) + 1 ≤ t := by omega
      -- (d-1)^2 + (y-1)^2 < d^2 because d^2 + y^2 < (d+1)^2
      have h6 : t ^ 2 ≤ ((d : Int) - 1) ^ 2 := by nlinarith
      have h7 : y ^ 2 < 2 * d + 1 := by nlinarith
      nlinarith
  | succ n ih =>
    intro x y hxn hy hyd hxy hA
    have hd : (0 : Int) < d := by omega
    have hA' := hA
    obtain ⟨hA1, hA2⟩ := hA'
    simp only at hA1 hA2
    by_cases hL : InAnnulus d ⟨x - 1, y⟩
    · -- continue to the left
      have hs : ringStep d ⟨x, y⟩ = ⟨x - 1, y⟩ := by
        rcases lt_trichotomy x 0 with h | h | h
        · rw [step_q2 h hy, if_pos hL]
        · subst h; rw [step_x0 hy]; rfl
        · rw [step_q1 h hy, if_pos hL]
      obtain ⟨xs, q, w, nd, mem, hq⟩ := ih (x - 1) y (by push_cast at hxn; omega) hy hyd (by
        rcases hxy with h | h
        · left; omega
        · right; exact h) hL
      refine ⟨⟨x, y⟩ :: xs, q, ⟨rfl, by rw [hs]; exact w⟩, ?_, ?_, hq⟩
      · rw [List.nodup_cons]
        refine ⟨?_, nd⟩
        rw [mem]
        rintro ⟨-, -, h⟩
        simp only at h
        omega
      · intro z
        rw [List.mem_cons, mem]
        constructor
        · rintro (rfl | ⟨h1, h2, h3⟩)
          · exact ⟨hA, rfl, le_refl _⟩
          · exact ⟨h1, h2, by omega⟩
        · rintro ⟨h1, h2, h3⟩
          by_cases hz : z.x = x
          · left; exact Idx.ext hz h2
          · right; exact ⟨h1, h2, by omega⟩
    · -- the row ends here; then x < 0
      have hx : x < 0 := by
        rcases hxy with h | h
        · exact h
        · by_contra hc
          apply hL
          subst h
          refine ⟨?_, ?_⟩
          · simp only; nlinarith [sq_nonneg (x - 1)]
          · simp only
            rcases Int.lt_or_eq_of_le (not_lt.mp hc) with h | h
            · nlinarith
            · rw [← h]; nlinarith
      have hhigh : ((d : Int) + 1) ^ 2 ≤ (x - 1) ^ 2 + y ^ 2 := by
        by_contra hc
        apply hL
        refine ⟨?_, not_le.mp hc⟩
        simp only; nlinarith
      have hs := step_q2 (d := d) hx hy
      rw [if_neg hL] at hs
      have hmem : ∀ z : Idx, z ∈ [(⟨x, y⟩ : Idx)] ↔ InAnnulus d z ∧ z.y = y ∧ z.x ≤ x := by
        intro z
        rw [List.mem_singleton]
        constructor
        · rintro rfl; exact ⟨hA, rfl, le_refl _⟩
        · rintro ⟨h1, h2, h3⟩
          refine Idx.ext ?_ h2
          simp only
          by_contra hc
          have h4 := h1.2
          rw [h2] at h4
          have : z.x ≤ x - 1 := by omega
          nlinarith
      have hxd : -(d : Int) ≤ x := by push_cast at hxn; omega
      by_cases hD : InAnnulus d ⟨x, y - 1⟩
      · rw [if_pos hD] at hs
        refine ⟨_, _, Walk.one hs, by simp, hmem, hD, rfl, hx, ?_⟩
        intro t ht ht0
        simp only
        by_contra hc
        have h1 := ht.1
        simp only at h1
        have h5 : x + 1 ≤ t := by omega
        have h6 : t ^ 2 ≤ (x + 1) ^ 2 := by
          have := mul_nonneg (by omega : 0 ≤ t - (x + 1)) (by omega : 0 ≤ -(x + 1) - t)
          linarith [sq t, sq (x + 1), this]
        -- (|x|-1)^2 + (y-1)^2 < d^2
        have h7 : (d : Int) ≤ -x - 1 + (y - 1) := by
          by_contra hlt
          have h8 := mul_nonneg (by omega : 0 ≤ -x - 1) (by omega : 0 ≤ y - 1)
          have h9 : (-x - 1 + (y - 1)) ^ 2 < (d : Int) ^ 2 := by
            apply pow_lt_pow_left₀ (not_le.mp hlt) (by omega) (by norm_num)
          nlinarith
        nlinarith
      · rw [if_neg hD] at hs
        have hlow : x ^ 2 + (y - 1) ^ 2 < (d : Int) ^ 2 := by
          by_contra hc
          apply hD
          refine ⟨not_lt.mp hc, ?_⟩
          simp only; nlinarith
        refine ⟨_, _, Walk.one hs, by simp, hmem, ?_, rfl, by simp only; omega, ?_⟩
        · refine ⟨?_, ?_⟩ <;> simp only <;> nlinarith
        · intro t ht ht0
          simp only
          by_contra hc
          have h1 := ht.1
          simp only at h1
          have h5 : x ≤ t := by omega
          nlinarith

/-- The rows of the second quadrant below the top one, down to the x axis. -/
theorem rows_q2 (n : Nat) : ∀ (x : Int), (n : Int) ≤ d → x < 0 → InAnnulus d ⟨x, n⟩ →
    (∀ t, InAnnulus d ⟨t, n⟩ → t < 0 → t ≤ x) →
    ∃ xs, Walk d ⟨x, n⟩ xs ⟨-d, 0⟩ ∧ xs.Nodup ∧
      (∀ z : Idx, z ∈ xs ↔ InAnnulus d z ∧ 0 < z.y ∧ z.y ≤ n ∧ z.x < 0) := by
  induction n with
  | zero =>
    intro x hn hx hA ht
    obtain ⟨h1, h2⟩ := hA
    simp only [Nat.cast_zero] at h1 h2
    have e : x = -d := by nlinarith
    subst e
    refine ⟨[], rfl, List.nodup_nil, ?_⟩
    intro z
    constructor
    · intro h; cases h
    · rintro ⟨-, h1, h2, -⟩; push_cast at h2; omega
  | succ n ih =>
    intro x hn hx hA ht
    have hxd : 0 ≤ x + d := by
      have := hA.2
      simp only at this
      by_contra hc
      have : x ≤ -d - 1 := by omega
      nlinarith [sq_nonneg (((n + 1 : Nat) : Int))]
    obtain ⟨k, hk⟩ := Int.eq_ofNat_of_zero_le hxd
    obtain ⟨xs, q, w, nd, mem, hqA, hqy, hqx, hqt⟩ := row_q2 k x ((n + 1 : Nat) : Int) hk (by push_cast; omega) hn
      (Or.inl hx) hA
    have e : ((n + 1 : Nat) : Int) - 1 = n := by push_cast; ring
    rw [e] at hqy hqt
    have hq : q = ⟨q.x, n⟩ := Idx.ext rfl hqy
    obtain ⟨ys, w2, nd2, mem2⟩ := ih q.x (by push_cast at hn; omega) hqx (by rw [← hqy]; exact hqA) hqt
    rw [hq] at w
    refine ⟨xs ++ ys, w.append w2, ?_, ?_⟩
    · rw [List.nodup_append]
      refine ⟨nd, nd2, ?_⟩
      intro a ha b hb hab
      subst hab
      have h1 := ((mem a).mp ha).2.1
      have h2 := ((mem2 a).mp hb).2.2.1
      push_cast at h1
      omega
    · intro z
      rw [List.mem_append, mem, mem2]
      constructor
      · rintro (⟨h1, h2, h3⟩ | ⟨h1, h2, h3, h4⟩)
        · exact ⟨h1, by rw [h2]; push_cast; omega, by rw [h2], by omega⟩
        · exact ⟨h1, h2, by push_cast; omega, h4⟩
      · rintro ⟨h1, h2, h3, h4⟩
        by_cases hz : z.y = ((n + 1 : Nat) : Int)
        · left
          refine ⟨h1, hz, ht z.x ?_ h4⟩
          rw [← hz]; exact h1
        · right; exact ⟨h1, h2, by push_cast at h3 hz; omega, h4⟩

end Rows

/-- The upper half of the ring. -/
theorem half_ring {d : Nat} (hd : 0 < d) :
    ∃ xs, Walk d ⟨d, 0⟩ xs ⟨-d, 0⟩ ∧ xs.Nodup ∧ (∃ t, xs = ⟨d, 0⟩ :: t) ∧
      (∀ z : Idx, z ∈ xs ↔ InAnnulus d z ∧ (0 < z.y ∨ (z.y = 0 ∧ 0 < z.x))) := by
  have hd' : (0 : Int) < d := by omega
  have hA1 : InAnnulus d ⟨d, 1⟩ := by refine ⟨?_, ?_⟩ <;> simp only <;> nlinarith
  obtain ⟨n, hn⟩ := Int.eq_ofNat_of_zero_le (by omega : 0 ≤ (d : Int) - 1)
  obtain ⟨xs, q, w, nd, mem, hqA, hqy, hqx, hqt⟩ := rows_q1 n d 1 (by omega) (by omega) (by omega) hA1 (by
    intro t ht ht0
    by_contra hc
    have := ht.2
    simp only at this
    have : (d : Int) + 1 ≤ t := by omega
    nlinarith)
  have hqd : 0 ≤ q.x + d := by omega
  obtain ⟨k, hk⟩ := Int.eq_ofNat_of_zero_le hqd
  obtain ⟨ys, r, w2, nd2, mem2, hrA, hry, hrx, hrt⟩ := row_q2 k q.x d hk hd' (le_refl _) (Or.inr rfl)
    (by rw [← hqy]; exact hqA)
  have hq : q = ⟨q.x, d⟩ := Idx.ext rfl hqy
  rw [hq] at w
  have e : (d : Int) - 1 = ((d - 1 : Nat) : Int) := by omega
  rw [e] at hry hrt
  have hr : r = ⟨r.x, ((d - 1 : Nat) : Int)⟩ := Idx.ext rfl hry
  obtain ⟨zs, w3, nd3, mem3⟩ := rows_q2 (d - 1) r.x (by omega) hrx (by rw [← hry]; exact hrA) hrt
  rw [hr] at w2
  refine ⟨⟨d, 0⟩ :: (xs ++ (ys ++ zs)), ⟨rfl, ?_⟩, ?_, ⟨_, rfl⟩, ?_⟩
  · rw [step_y0 hd']
    exact w.append (w2.append w3)
  · rw [List.nodup_cons, List.nodup_append, List.nodup_append]
    refine ⟨?_, nd, ⟨nd2, nd3, ?_⟩, ?_⟩
    · rw [List.mem_append, List.mem_append, mem, mem2, mem3]
      simp only
      omega
    · intro a ha b hb hab
      subst hab
      have h1 := ((mem2 a).mp ha).2.1
      have h2 := ((mem3 a).mp hb).2.2.1
      omega
    · intro a ha b hb hab
      subst hab
      have h1 := ((mem a).mp ha).2.2.1
      have h1' := ((mem a).mp ha).2.2.2
      rcases List.mem_append.mp hb with h | h
      · have := ((mem2 a).mp h).2.1; omega
      · have := ((mem3 a).mp h).2.2.2; omega
  · intro z
    rw [List.mem_cons, List.mem_append, List.mem_append, mem, mem2, mem3]
    constructor
    · rintro (rfl | ⟨h1, h2, h3, h4⟩ | ⟨h1, h2, h3⟩ | ⟨h1, h2, h3, h4⟩)
      · refine ⟨⟨?_, ?_⟩, Or.inr ⟨rfl, hd'⟩⟩ <;> simp only <;> nlinarith
      · exact ⟨h1, Or.inl (by omega)⟩
      · exact ⟨h1, Or.inl (by omega)⟩
      · exact ⟨h1, Or.inl h2⟩
    · rintro ⟨h1, h2⟩
      have hzd : z.y ≤ d := by
        by_contra hc
        have := h1.2
        have : (d : Int) + 1 ≤ z.y := by omega
        nlinarith [sq_nonneg z.x]
      rcases h2 with h2 | ⟨h2, h3⟩
      · right
        by_cases hy : z.y = d
        · right; left
          refine ⟨h1, hy, ?_⟩
          by_cases hx : 0 ≤ z.x
          · exact hqt z.x (by rw [← hy]; exact h1) hx
          · omega
        · by_cases hx : 0 ≤ z.x
          · left; exact ⟨h1, by omega, by omega, hx⟩
          · right; right; exact ⟨h1, h2, by omega, by omega⟩
      · left
        obtain ⟨g1, g2⟩ := h1
        rw [h2] at g1 g2
        refine Idx.ext ?_ h2
        simp only
        nlinarith

/-- The whole ring. -/
theorem full_ring {d : Nat} (hd : 0 < d) :
    ∃ xs, Walk d ⟨d, 0⟩ xs ⟨d, 0⟩ ∧ xs.Nodup ∧ (∃ t, xs = ⟨d, 0⟩ :: t) ∧ (∀ z : Idx, z ∈ xs ↔ InAnnulus d z) := by
  obtain ⟨xs, w, nd, ⟨t, ht⟩, mem⟩ := half_ring hd
  have w2 := w.neg
  have e1 : negIdx ⟨d, 0⟩ = ⟨-d, 0⟩ := rfl
  have e2 : negIdx ⟨-d, 0⟩ = ⟨d, 0⟩ := by simp [negIdx]
  rw [e1, e2] at w2
  have mem2 : ∀ z, z ∈ xs.map negIdx ↔ InAnnulus d z ∧ (z.y < 0 ∨ (z.y = 0 ∧ z.x < 0)) := by
    intro z
    rw [List.mem_map]
    constructor
    · rintro ⟨a, ha, rfl⟩
      obtain ⟨h1, h2⟩ := (mem a).mp ha
      refine ⟨inAnnulus_neg.mpr h1, ?_⟩
      simp only [negIdx]; omega
    · rintro ⟨h1, h2⟩
      refine ⟨negIdx z, (mem _).mpr ⟨inAnnulus_neg.mpr h1, ?_⟩, negIdx_negIdx z⟩
      simp only [negIdx]; omega
  refine ⟨xs ++ xs.map negIdx, w.append w2, ?_, ⟨t ++ xs.map negIdx, by rw [ht]; rfl⟩, ?_⟩
  · rw [List.nodup_append]
    refine ⟨nd, ?_, ?_⟩
    · refine List.Nodup.map ?_ nd
      intro a b h
      rw [← negIdx_negIdx a, h, negIdx_negIdx]
    · intro a ha b hb hab
      subst hab
      have h1 := ((mem a).mp ha).2
      have h2 := ((mem2 a).mp hb).2
      omega
  · intro z
    rw [List.mem_append, mem, mem2]
    constructor
    · rintro (⟨h, -⟩ | ⟨h, -⟩) <;> exact h
    · intro h
      have hne : ¬ (z.x = 0 ∧ z.y = 0) := by
        rintro ⟨h1, h2⟩
        have := h.1
        rw [h1, h2] at this
        have : (0 : Int) < d := by omega
        nlinarith
      by_cases h1 : 0 < z.y ∨ (z.y = 0 ∧ 0 < z.x)
      · exact Or.inl ⟨h, h1⟩
      · exact Or.inr ⟨h, by omega⟩

theorem ringFrom_walk {d : Nat} (xs : List Idx) : ∀ (fuel : Nat) (p : Idx), xs ≠ [] → Walk d p xs ⟨d, 0⟩ →
    (∀ z ∈ xs.tail, z ≠ ⟨d, 0⟩) → xs.length ≤ fuel → ringFrom d fuel p = some xs := by
  induction xs with
  | nil => intro _ _ h; exact absurd rfl h
  | cons x xs ih =>
    intro fuel p _ w hz hl
    obtain ⟨f, rfl⟩ : ∃ f, fuel = f + 1 := ⟨fuel - 1, by simp only [List.length_cons] at hl; omega⟩
    obtain ⟨rfl, w⟩ := w
    simp only [ringFrom]
    cases xs with
    | nil =>
      have w' : ringStep d x = ⟨d, 0⟩ := w
      rw [w']; simp
    | cons y ys =>
      have hy : y = ringStep d x := w.1
      have hne : ringStep d x ≠ ⟨d, 0⟩ := by
        rw [← hy]; exact hz y (by simp)
      rw [if_neg (by rintro ⟨h1, h2⟩; exact hne (Idx.ext h1 h2)), ih f _ (by simp) w (by
        intro z hz'; exact hz z (by simp only [List.tail_cons] at hz' ⊢; exact List.mem_cons_of_mem _ hz')) (by
        simp only [List.length_cons] at hl ⊢; omega)]
      rfl

theorem inAnnulus_box {d : Nat} {z : Idx} (h : InAnnulus d z) :
    -(d : Int) ≤ z.x ∧ z.x ≤ d ∧ -(d : Int) ≤ z.y ∧ z.y ≤ d := by
  have h2 := h.2
  refine ⟨?_, ?_, ?_, ?_⟩ <;> by_contra hc
  · have : z.x ≤ -d - 1 := by omega
    nlinarith [sq_nonneg z.y]
  · have : (d : Int) + 1 ≤ z.x := by omega
    nlinarith [sq_nonneg z.y]
  · have : z.y ≤ -d - 1 := by omega
    nlinarith [sq_nonneg z.x]
  · have : (d : Int) + 1 ≤ z.y := by omega
    nlinarith [sq_nonneg z.x]

theorem ringOffsets_spec {d : Nat} (hd : 0 < d) :
    ∃ os, ringOffsets d = some os ∧ os.Nodup ∧ ∀ o : Idx, o ∈ os ↔ InAnnulus d o := by
  obtain ⟨xs, w, nd, ⟨t, ht⟩, mem⟩ := full_ring hd
  refine ⟨xs, ringFrom_walk xs _ _ (by rw [ht]; simp) w ?_ ?_, nd, mem⟩
  · intro z hz h
    rw [ht] at nd hz
    rw [List.tail_cons, h] at hz
    exact (List.nodup_cons.mp nd).1 hz
  · have hsub : xs ⊆ (rowMajor ⟨2 * d + 1, 2 * d + 1⟩).map (fun i => (⟨i.x - d, i.y - d⟩ : Idx)) := by
      intro z hz
      obtain ⟨h1, h2, h3, h4⟩ := inAnnulus_box ((mem z).mp hz)
      rw [List.mem_map]
      refine ⟨⟨z.x + d, z.y + d⟩, mem_rowMajor.mpr ⟨?_, ?_, ?_, ?_⟩, ?_⟩
      · simp only; omega
      · simp only; omega
      · simp only; omega
      · simp only; omega
      · ext <;> simp
    have := (List.subperm_of_subset nd hsub).length_le
    rw [List.length_map, rowMajor_length] at this
    have e : ((2 * (d : Int) + 1).toNat) = 2 * d + 1 := by omega
    simp only [e] at this
    refine le_trans this ?_
    nlinarith

end CostMapModel

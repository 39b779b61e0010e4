import Verif.Spec.Demos
import Verif.Lemmas.Rounded
import Verif.Lemmas.Costmap2D
import Mathlib.Tactic.FieldSimp
import Mathlib.Tactic.Positivity

/-!
# Lemmas: the demo costmaps
-/

namespace CostMapModel
set_option linter.unusedSectionVars false

theorem Act.forEach_append {σ α : Type} (f : α → Act σ Unit) (l l' : List α) :
    Act.forEach f (l ++ l') = Act.bind (Act.forEach f l) fun _ => Act.forEach f l' := by
  induction l with
  | nil => rfl
  | cons a as ih =>
    funext s
    show Act.bind (f a) (fun _ => Act.forEach f (as ++ l')) s = _
    rw [ih]
    show Act.bind (f a) (fun _ => Act.bind (Act.forEach f as) fun _ => Act.forEach f l') s =
      Act.bind (Act.bind (f a) fun _ => Act.forEach f as) (fun _ => Act.forEach f l') s
    unfold Act.bind
    rcases f a s with ⟨r, s'⟩
    cases r <;> rfl

/-- A loop with an invariant. -/
theorem Act.forEach_range {σ : Type} {f : Nat → Act σ Unit} {P : Nat → σ → Prop} {n : Nat} {s : σ} (h0 : P 0 s)
    (h : ∀ k < n, ∀ s, P k s → ∃ s', f k s = (.ok (), s') ∧ P (k + 1) s') :
    ∃ s', Act.forEach f (List.range n) s = (.ok (), s') ∧ P n s' := by
  induction n with
  | zero => exact ⟨s, rfl, h0⟩
  | succ n ih =>
    obtain ⟨s1, e1, p1⟩ := ih fun k hk => h k (by omega)
    obtain ⟨s2, e2, p2⟩ := h n (by omega) s1 p1
    refine ⟨s2, ?_, p2⟩
    rw [List.range_succ, Act.forEach_append, Act.bind_ok e1]
    show Act.bind (f n) (fun _ => Act.pure ()) s1 = _
    rw [Act.bind_ok e2]
    rfl

/-- A loop whose body has undefined behaviour at some turn, having gone well before. -/
theorem Act.forEach_range_ub {σ : Type} {f : Nat → Act σ Unit} {P : Nat → σ → Prop} {n k : Nat} (hk : k < n) {s : σ}
    (h0 : P 0 s) (h : ∀ j < k, ∀ s, P j s → ∃ s', f j s = (.ok (), s') ∧ P (j + 1) s')
    (hu : ∀ s, P k s → (f k s).1 = .ub) : (Act.forEach f (List.range n) s).1 = .ub := by
  obtain ⟨s1, e1, p1⟩ := Act.forEach_range h0 h
  obtain ⟨d, rfl⟩ : ∃ d, n = k + 1 + d := ⟨n - (k + 1), by omega⟩
  rw [List.range_add, Act.forEach_append, List.range_succ, Act.forEach_append]
  have h2 := hu s1 p1
  have : (Act.bind (Act.forEach f (List.range k)) fun _ => Act.forEach f [k]) s = (.ub, (f k s1).2) := by
    rw [Act.bind_ok e1]
    show Act.bind (f k) (fun _ => Act.pure ()) s1 = _
    unfold Act.bind
    rcases hf : f k s1 with ⟨r, s'⟩
    rw [hf] at h2
    simp only at h2
    subst h2
    rfl
  unfold Act.bind at this ⊢
  simp only [this]

section
variable {K : Type} [Field K] [LinearOrder K] [IsStrictOrderedRing K] [FloorRing K]

/-! ## The height of a stripe -/

/-- The value before truncation, in double. -/
theorem stripe_near {rd : K → K} (hrd : DoublePrecision rd) {k n : Nat} (hn : 0 < n) (hk : k ≤ n) :
    |rd (rd ((k : K) / n) * 253) - 253 * k / n| ≤ 1 / 2 ^ 43 ∧ 0 ≤ rd (rd ((k : K) / n) * 253) := by
  have hn' : (0 : K) < n := by exact_mod_cast hn
  have hk' : (k : K) ≤ n := by exact_mod_cast hk
  have hk0 : (0 : K) ≤ k := by exact_mod_cast Nat.zero_le k
  have ha : (253 * k / n : K) = 253 * ((k : K) / n) := by ring
  obtain ⟨a, hae⟩ : ∃ a, a = (k : K) / n := ⟨_, rfl⟩
  have a0 : 0 ≤ a := by rw [hae]; positivity
  have a1 : a ≤ 1 := by rw [hae]; exact (div_le_one hn').mpr hk'
  rw [ha, ← hae]
  have h1 := hrd a
  rw [abs_of_nonneg a0] at h1
  have h1' := abs_le.mp h1
  obtain ⟨b, hb⟩ : ∃ b, b = rd a := ⟨_, rfl⟩
  rw [← hb] at h1' ⊢
  have b0 : 0 ≤ b := by linarith [h1'.1, (by linarith : a / 2 ^ 53 ≤ a)]
  have b1 : b ≤ 2 := by linarith [h1'.2, (by linarith : a / 2 ^ 53 ≤ a)]
  have h2 := hrd (b * 253)
  rw [abs_of_nonneg (by linarith : (0:K) ≤ b * 253)] at h2
  have h2' := abs_le.mp h2
  refine ⟨abs_le.mpr ⟨by linarith [h2'.1, h1'.1], by linarith [h2'.2, h1'.2]⟩, by linarith [h2'.1]⟩

/-- The truncated value is the quotient, or one less if the division leaves no remainder. -/
theorem floor_near {n k : Nat} (hn : 0 < n) (hn' : n < 2 ^ 32) {x : K} (hx : |x - 253 * k / n| ≤ 1 / 2 ^ 43) :
    ⌊x⌋ = ((253 * k / n : Nat) : Int) ∨ (n ∣ 253 * k ∧ ⌊x⌋ + 1 = ((253 * k / n : Nat) : Int)) := by
  have hnK : (0 : K) < n := by exact_mod_cast hn
  have hnK' : (n : K) < 2 ^ 32 := by exact_mod_cast hn'
  have hd : n * (253 * k / n) + 253 * k % n = 253 * k := Nat.div_add_mod _ _
  have hr : 253 * k % n < n := Nat.mod_lt _ hn
  obtain ⟨q, hq⟩ : ∃ q, q = 253 * k / n := ⟨_, rfl⟩
  obtain ⟨r, hre⟩ : ∃ r, r = 253 * k % n := ⟨_, rfl⟩
  rw [← hq, ← hre] at hd
  rw [← hre] at hr
  rw [← hq]
  have hdK : (n : K) * q + r = 253 * k := by exact_mod_cast hd
  have ha : (253 * k / n : K) = q + r / n := by field_simp; linarith
  rw [ha] at hx
  have hx' := abs_le.mp hx
  have he : (1 : K) / 2 ^ 43 < 1 / n := by
    apply one_div_lt_one_div_of_lt hnK
    linarith
  rcases Nat.eq_zero_or_pos r with h0 | h0
  · subst h0
    simp only [Nat.cast_zero, zero_div, add_zero] at hx'
    rcases le_or_gt (q : K) x with h | h
    · left
      rw [Int.floor_eq_iff]
      push_cast
      exact ⟨h, by linarith [hx'.2]⟩
    · right
      refine ⟨Dvd.intro q (by omega), ?_⟩
      have : ⌊x⌋ = (q : Int) - 1 := by
        rw [Int.floor_eq_iff]
        push_cast
        exact ⟨by linarith [hx'.1], by linarith⟩
      omega
  · left
    have h1 : (1 : K) / n ≤ r / n := by
      apply div_le_div_of_nonneg_right _ hnK.le
      exact_mod_cast h0
    have h2 : (r : K) / n ≤ 1 - 1 / n := by
      rw [show (1 : K) - 1 / n = (n - 1) / n by field_simp]
      apply div_le_div_of_nonneg_right _ hnK.le
      have : ((r + 1 : Nat) : K) ≤ n := by exact_mod_cast hr
      push_cast at this
      linarith
    rw [Int.floor_eq_iff]
    push_cast
    exact ⟨by linarith [hx'.1], by linarith [hx'.2]⟩

/-- The height of a stripe as a number. -/
def height (rd : K → K) (n i : Nat) : Nat := ⌊rd (rd (((i + 1 : Nat) : K) / n) * 253)⌋.toNat

theorem height_spec {rd : K → K} (hrd : DoublePrecision rd) {n i : Nat} (hi : i + 2 < n) (hn' : n < 2 ^ 32) :
    (height rd n i = 253 * (i + 1) / n ∨ (n ∣ 253 * (i + 1) ∧ height rd n i + 1 = 253 * (i + 1) / n)) ∧
    height rd n i ≤ 252 ∧ (height rd n i : K) ≤ rd (rd (((i + 1 : Nat) : K) / n) * 253) ∧
    rd (rd (((i + 1 : Nat) : K) / n) * 253) < height rd n i + 1 := by
  obtain ⟨hx, h0⟩ := stripe_near hrd (K := K) (by omega : 0 < n) (by omega : i + 1 ≤ n)
  have hf := floor_near (K := K) (by omega : 0 < n) hn' hx
  have hfl0 : 0 ≤ ⌊rd (rd (((i + 1 : Nat) : K) / n) * 253)⌋ := Int.floor_nonneg.mpr h0
  have hh : (height rd n i : Int) = ⌊rd (rd (((i + 1 : Nat) : K) / n) * 253)⌋ := Int.toNat_of_nonneg hfl0
  have hle : 253 * (i + 1) / n ≤ 252 := by
    have : 253 * (i + 1) / n < 253 := Nat.div_lt_of_lt_mul (by rw [Nat.mul_comm n]; omega)
    omega
  rw [← hh] at hf
  have hcast : (height rd n i : K) = ((height rd n i : Int) : K) := by push_cast; rfl
  refine ⟨?_, ?_, ?_, ?_⟩
  · rcases hf with h | ⟨h, h'⟩
    · left; exact_mod_cast h
    · right; exact ⟨h, by exact_mod_cast h'⟩
  · rcases hf with h | ⟨h, h'⟩
    · have : height rd n i = 253 * (i + 1) / n := by exact_mod_cast h
      omega
    · have : height rd n i + 1 = 253 * (i + 1) / n := by exact_mod_cast h'
      omega
  · rw [hcast, hh]; exact Int.floor_le _
  · rw [hcast, hh]; exact Int.lt_floor_add_one _

theorem height_mono {rd : K → K} (hrd : DoublePrecision rd) {n i j : Nat} (hij : i ≤ j) (hj : j + 2 < n) (hn' : n < 2 ^ 32) :
    height rd n i ≤ height rd n j := by
  rcases Nat.eq_or_lt_of_le hij with rfl | hlt
  · exact le_rfl
  obtain ⟨hx, -⟩ := stripe_near hrd (K := K) (by omega : 0 < n) (by omega : i + 1 ≤ n)
  obtain ⟨hy, -⟩ := stripe_near hrd (K := K) (by omega : 0 < n) (by omega : j + 1 ≤ n)
  refine Int.toNat_le_toNat (Int.floor_le_floor ?_)
  have hnK : (0 : K) < n := by exact_mod_cast (by omega : 0 < n)
  have hnK' : (n : K) < 2 ^ 32 := by exact_mod_cast hn'
  have hd : (253 * ((i + 1 : Nat) : K) / n) + 253 / n ≤ 253 * ((j + 1 : Nat) : K) / n := by
    rw [← add_div]
    apply div_le_div_of_nonneg_right _ hnK.le
    have : ((i + 1 + 1 : Nat) : K) ≤ ((j + 1 : Nat) : K) := by exact_mod_cast (by omega : i + 1 + 1 ≤ j + 1)
    push_cast at this ⊢
    linarith
  have he : (253 : K) / 2 ^ 32 ≤ 253 / n := by
    apply div_le_div_of_nonneg_left (by norm_num) hnK hnK'.le
  have := (abs_le.mp hx).2
  have := (abs_le.mp hy).1
  have : (2 : K) / 2 ^ 43 ≤ 253 / 2 ^ 32 := by norm_num
  linarith

theorem height_strict {rd : K → K} (hrd : DoublePrecision rd) {n i j : Nat} (hij : i < j) (hj : j + 2 < n)
    (hn : n ≤ 252 ∨ n = 254) : height rd n i < height rd n j := by
  have hn' : n < 2 ^ 32 := by omega
  rcases hn with hn | rfl
  · obtain ⟨hx, -⟩ := stripe_near hrd (K := K) (by omega : 0 < n) (by omega : i + 1 ≤ n)
    obtain ⟨hy, -⟩ := stripe_near hrd (K := K) (by omega : 0 < n) (by omega : j + 1 ≤ n)
    obtain ⟨-, -, h1, -⟩ := height_spec hrd (K := K) (by omega : i + 2 < n) hn'
    obtain ⟨-, -, -, h2⟩ := height_spec hrd (K := K) hj hn'
    have hnK : (0 : K) < n := by exact_mod_cast (by omega : 0 < n)
    have hnK' : (n : K) ≤ 252 := by exact_mod_cast hn
    have hd : (253 * ((i + 1 : Nat) : K) / n) + 253 / n ≤ 253 * ((j + 1 : Nat) : K) / n := by
      rw [← add_div]
      apply div_le_div_of_nonneg_right _ hnK.le
      have : ((i + 1 + 1 : Nat) : K) ≤ ((j + 1 : Nat) : K) := by exact_mod_cast (by omega : i + 1 + 1 ≤ j + 1)
      push_cast at this ⊢
      linarith
    have he : (253 : K) / 252 ≤ 253 / n := div_le_div_of_nonneg_left (by norm_num) hnK hnK'
    have := (abs_le.mp hx).2
    have := (abs_le.mp hy).1
    have : (1 : K) + 2 / 2 ^ 43 ≤ 253 / 252 := by norm_num
    have : (height rd n i : K) < height rd n j := by
      by_contra hc
      have h3 : (height rd n j : K) ≤ height rd n i := not_lt.mp hc
      linarith
    exact_mod_cast this
  · have key : ∀ k, k + 2 < 254 → height rd 254 k = k := by
      intro k hk
      obtain ⟨h, -⟩ := height_spec hrd (K := K) hk hn'
      rcases h with h | ⟨h, -⟩
      · rw [h]
        omega
      · omega
    rw [key i (by omega), key j hj]
    exact hij

/-! ## Filling -/

namespace Costmap2D

/-- What is written in column `x`. -/
def column (rd : K → K) (n x : Nat) : Cost :=
  if x + 2 < n then UInt8.ofNat (height rd n x) else if x + 2 = n then LETHAL_OBSTACLE else NO_INFORMATION

theorem stripe_ok {rd : K → K} (hrd : DoublePrecision rd) {n i : Nat} (hi : i + 2 < n) (hn' : n < 2 ^ 32) :
    stripe rd n i = .ok (column rd n i) := by
  obtain ⟨-, h0⟩ := stripe_near hrd (K := K) (by omega : 0 < n) (by omega : i + 1 ≤ n)
  obtain ⟨-, h3, -, h2⟩ := height_spec hrd (K := K) hi hn'
  have h3' : (height rd n i : K) ≤ 252 := by exact_mod_cast h3
  unfold stripe column
  rw [if_neg (by omega), if_pos hi, Nat.mod_eq_of_lt (by omega : i + 1 < 2 ^ 32)]
  simp only
  rw [if_pos ⟨by linarith, by linarith⟩]
  unfold truncToInt height
  rw [if_pos h0]

theorem subU32_eq {n k : Nat} (hn : n < 2 ^ 32) (hk : k ≤ n) : subU32 n k = n - k := by
  unfold subU32
  rw [show n + (2 ^ 32 - k) = n - k + 2 ^ 32 by omega, Nat.add_mod_right, Nat.mod_eq_of_lt (by omega)]

/-- The same costmap but for the costs. -/
def SameHead (c c' : Costmap2D K) : Prop :=
  c'.sizeX = c.sizeX ∧ c'.sizeY = c.sizeY ∧ c'.resolution = c.resolution ∧ c'.origin = c.origin ∧
    c'.costs.length = c.costs.length

theorem SameHead.refl (c : Costmap2D K) : SameHead c c := ⟨rfl, rfl, rfl, rfl, rfl⟩

theorem SameHead.trans {a b c : Costmap2D K} (h : SameHead a b) (h' : SameHead b c) : SameHead a c :=
  ⟨h'.1.trans h.1, h'.2.1.trans h.2.1, h'.2.2.1.trans h.2.2.1, h'.2.2.2.1.trans h.2.2.2.1, h'.2.2.2.2.trans h.2.2.2.2⟩

theorem index_lt {x y n m : Nat} (hx : x < n) (hy : y < m) : y * n + x < n * m := by
  have : (y + 1) * n ≤ m * n := Nat.mul_le_mul_right n hy
  rw [Nat.mul_comm n m]
  rw [Nat.add_mul] at this
  omega

theorem index_inj {x y x' y' n : Nat} (hx : x < n) (hx' : x' < n) (h : y * n + x = y' * n + x') : x = x' ∧ y = y' := by
  have h1 : (y * n + x) % n = x := by rw [Nat.mul_comm, Nat.mul_add_mod, Nat.mod_eq_of_lt hx]
  have h2 : (y' * n + x') % n = x' := by rw [Nat.mul_comm, Nat.mul_add_mod, Nat.mod_eq_of_lt hx']
  have hxx : x = x' := by rw [← h1, ← h2, h]
  subst hxx
  have : y * n = y' * n := by omega
  exact ⟨rfl, Nat.eq_of_mul_eq_mul_right (by omega) this⟩

/-- Writing one cell. -/
theorem setCost_ok {c : Costmap2D K} (hl : c.costs.length = c.sizeX * c.sizeY) (hs : c.sizeX * c.sizeY < 2 ^ 32) {x y : Nat}
    (hx : x < c.sizeX) (hy : y < c.sizeY) (v : Cost) :
    ∃ c', setCost x y v c = (.ok (), c') ∧ SameHead c c' ∧
      ∀ x' y', x' < c.sizeX → y' < c.sizeY → c'.costs[y' * c.sizeX + x']? =
        if x' = x ∧ y' = y then some v else c.costs[y' * c.sizeX + x']? := by
  have hlt := index_lt hx hy
  have hi : c.cellIndex x y = y * c.sizeX + x := Nat.mod_eq_of_lt (by omega)
  refine ⟨{ c with costs := c.costs.set (c.cellIndex x y) v }, ?_, ⟨rfl, rfl, rfl, rfl, by simp⟩, fun x' y' hx' hy' => ?_⟩
  · unfold setCost
    rw [if_pos (by rw [hi]; omega)]
  · simp only
    rw [hi, List.getElem?_set]
    by_cases h : x' = x ∧ y' = y
    · obtain ⟨rfl, rfl⟩ := h
      rw [if_pos rfl, if_pos (by omega), if_pos ⟨rfl, rfl⟩]
    · rw [if_neg h, if_neg]
      intro he
      obtain ⟨h1, h2⟩ := index_inj hx hx' he
      exact h ⟨h1.symm, h2.symm⟩

/-- The columns below `k` of row `y` are written, everything else is as in `c`. -/
def RowDone (rd : K → K) (c : Costmap2D K) (y k : Nat) (c' : Costmap2D K) : Prop :=
  SameHead c c' ∧ ∀ x' y', x' < c.sizeX → y' < c.sizeY → c'.costs[y' * c.sizeX + x']? =
    if y' = y ∧ x' < k then some (column rd c.sizeX x') else c.costs[y' * c.sizeX + x']?

theorem RowDone.step {rd : K → K} {c c' : Costmap2D K} {y k : Nat} (h : RowDone rd c y k c')
    (hl : c.costs.length = c.sizeX * c.sizeY) (hs : c.sizeX * c.sizeY < 2 ^ 32) (hk : k < c.sizeX) (hy : y < c.sizeY)
    {v : Cost} (hv : v = column rd c.sizeX k) :
    ∃ c'', setCost k y v c' = (.ok (), c'') ∧ RowDone rd c y (k + 1) c'' := by
  obtain ⟨h0, h1⟩ := h
  obtain ⟨e1, e2, -, -, e5⟩ := id h0
  obtain ⟨c'', g1, g2, g3⟩ := setCost_ok (c := c') (by rw [e1, e2, e5, hl]) (by rw [e1, e2]; exact hs)
    (by rw [e1]; exact hk) (by rw [e2]; exact hy) v
  refine ⟨c'', g1, h0.trans g2, fun x' y' hx' hy' => ?_⟩
  have := g3 x' y' (by rw [e1]; exact hx') (by rw [e2]; exact hy')
  rw [e1] at this
  rw [this, h1 x' y' hx' hy']
  by_cases a : x' = k ∧ y' = y
  · obtain ⟨rfl, rfl⟩ := a
    rw [if_pos ⟨rfl, rfl⟩, if_pos ⟨rfl, by omega⟩, hv]
  · rw [if_neg a]
    by_cases b : y' = y ∧ x' < k
    · rw [if_pos b, if_pos ⟨b.1, by omega⟩]
    · rw [if_neg b, if_neg]
      rintro ⟨b1, b2⟩
      exact b ⟨b1, by have : x' ≠ k := fun hh => a ⟨hh, b1⟩
                      omega⟩

theorem fillRow_ok {rd : K → K} (hrd : DoublePrecision rd) {c : Costmap2D K} (hl : c.costs.length = c.sizeX * c.sizeY)
    (hs : c.sizeX * c.sizeY < 2 ^ 32) (hx : 2 ≤ c.sizeX) {y : Nat} (hy : y < c.sizeY) :
    ∃ c', fillRow rd y c = (.ok (), c') ∧ RowDone rd c y c.sizeX c' := by
  have hn' : c.sizeX < 2 ^ 32 := by
    have : c.sizeX * 1 ≤ c.sizeX * c.sizeY := Nat.mul_le_mul_left _ (by omega)
    omega
  have e2 : subU32 c.sizeX 2 = c.sizeX - 2 := subU32_eq hn' hx
  have e1 : subU32 c.sizeX 1 = c.sizeX - 1 := subU32_eq hn' (by omega)
  have h0 : RowDone rd c y 0 c := ⟨SameHead.refl c, fun x' y' _ _ => by rw [if_neg (by omega)]⟩
  obtain ⟨c1, g1, p1⟩ := Act.forEach_range (f := fillCell rd y) (n := c.sizeX - 2) h0 fun k hk s hp => by
    obtain ⟨s', q1, q2⟩ := hp.step hl hs (by omega) hy rfl
    refine ⟨s', ?_, q2⟩
    unfold fillCell
    rw [Act.bind_ok (show Act.read (fun c => stripe rd c.sizeX k) s = (.ok (column rd c.sizeX k), s) by
      show (stripe rd s.sizeX k, s) = _
      rw [hp.1.1, stripe_ok hrd (by omega) hn'])]
    exact q1
  obtain ⟨c2, g2, p2⟩ := p1.step hl hs (by omega) hy (v := LETHAL_OBSTACLE) (by
    unfold column; rw [if_neg (by omega), if_pos (by omega)])
  obtain ⟨c3, g3, p3⟩ := p2.step hl hs (by omega) hy (v := NO_INFORMATION) (by
    unfold column; rw [if_neg (by omega), if_neg (by omega)])
  refine ⟨c3, ?_, by rwa [show c.sizeX - 2 + 1 + 1 = c.sizeX by omega] at p3⟩
  unfold fillRow
  rw [e2, e1, Act.bind_ok g1, Act.bind_ok g2]
  rwa [show c.sizeX - 2 + 1 = c.sizeX - 1 by omega] at g3

theorem fill_ok {rd : K → K} (hrd : DoublePrecision rd) {c : Costmap2D K} (hl : c.costs.length = c.sizeX * c.sizeY)
    (hs : c.sizeX * c.sizeY < 2 ^ 32) (hx : 2 ≤ c.sizeX) :
    ∃ c', fill rd c = (.ok (), c') ∧ SameHead c c' ∧
      ∀ x y, x < c.sizeX → y < c.sizeY → c'.costs[y * c.sizeX + x]? = some (column rd c.sizeX x) := by
  obtain ⟨c', g, p1, p2⟩ := Act.forEach_range (f := fillRow rd) (n := c.sizeY) (s := c)
    (P := fun k c' => SameHead c c' ∧ ∀ x y, x < c.sizeX → y < k → c'.costs[y * c.sizeX + x]? = some (column rd c.sizeX x))
    ⟨SameHead.refl c, fun x y _ hy => absurd hy (by omega)⟩ fun k hk s ⟨hp, hp'⟩ => by
      obtain ⟨e1, e2, -, -, e5⟩ := id hp
      obtain ⟨s', q1, q2, q3⟩ := fillRow_ok hrd (c := s) (by rw [e1, e2, e5, hl]) (by rw [e1, e2]; exact hs)
        (by rw [e1]; exact hx) (by rw [e2]; exact hk)
      refine ⟨s', q1, hp.trans q2, fun x y hx' hy' => ?_⟩
      have := q3 x y (by rw [e1]; exact hx') (by rw [e2]; omega)
      rw [e1] at this
      rw [this]
      by_cases hyk : y = k
      · rw [if_pos ⟨hyk, hx'⟩]
      · rw [if_neg (by omega)]
        exact hp' x y hx' (by omega)
  exact ⟨c', g, p1, p2⟩

theorem subU32_wrap {n : Nat} (hx : n < 2) : 1 < subU32 n 2 := by unfold subU32; omega

theorem stripe_one_zero {rd : K → K} (hrd : DoublePrecision rd) : ∃ v, stripe rd 1 0 = .ok v := by
  obtain ⟨hn, h0⟩ := stripe_near hrd (K := K) (k := 1) (n := 1) (by omega) (by omega)
  have h1 := (abs_le.mp hn).2
  have h2 : (253 : K) * ((1 : Nat) : K) / ((1 : Nat) : K) = 253 := by norm_num
  rw [h2] at h1
  unfold stripe
  rw [if_neg (by omega), Nat.zero_add, Nat.mod_eq_of_lt (by norm_num : 1 < 2 ^ 32)]
  simp only
  rw [if_pos ⟨by linarith, by linarith [(by norm_num : (1 : K) / 2 ^ 43 < 1)]⟩]
  exact ⟨_, rfl⟩

theorem stripe_one_one {rd : K → K} (hrd : DoublePrecision rd) : stripe rd 1 1 = .ub := by
  have h1 := hrd 2
  have h2 := hrd (rd 2 * 253)
  rw [abs_of_nonneg (by norm_num : (0 : K) ≤ 2)] at h1
  have h1' := abs_le.mp h1
  have hb1 : (19 : K) / 10 ≤ rd 2 := by linarith [h1'.1, (by norm_num : (2 : K) / 2 ^ 53 ≤ 1 / 10)]
  rw [abs_of_nonneg (by linarith : (0 : K) ≤ rd 2 * 253)] at h2
  have h2' := abs_le.mp h2
  unfold stripe
  rw [if_neg (by omega), Nat.mod_eq_of_lt (by norm_num : 1 + 1 < 2 ^ 32), Nat.cast_one, div_one]
  simp only
  rw [if_neg]
  rintro ⟨-, h⟩
  rw [show ((1 + 1 : Nat) : K) = 2 by norm_num] at h
  linarith [h2'.1]

/-- Too few columns: `dimension - 2` wraps around. -/
theorem fillLoop_ub {rd : K → K} (hrd : DoublePrecision rd) {c : Costmap2D K} (hl : c.costs.length = c.sizeX * c.sizeY)
    (hx : c.sizeX < 2) (hy : 0 < c.sizeY) {N : Nat} (hN : 1 < N) :
    (Act.forEach (fillCell rd 0) (List.range N) c).1 = .ub := by
  rcases (by omega : c.sizeX = 0 ∨ c.sizeX = 1) with h | h
  · refine Act.forEach_range_ub (k := 0) (P := fun _ s => s.sizeX = 0) (by omega) h
      (fun j hj => absurd hj (by omega)) fun s hs => ?_
    unfold fillCell Act.bind Act.read
    simp only [hs, stripe, if_pos]
  · refine Act.forEach_range_ub (k := 1) (P := fun _ s => s.sizeX = 1 ∧ 0 < s.costs.length) hN
      ⟨h, by rw [hl, h]; omega⟩ (fun j hj s ⟨hs, hs'⟩ => ?_) fun s ⟨hs, hs'⟩ => ?_
    · obtain rfl : j = 0 := by omega
      obtain ⟨v, hv⟩ := stripe_one_zero hrd
      rw [← hs] at hv
      refine ⟨{ s with costs := s.costs.set (s.cellIndex 0 0) v }, ?_, hs, by simpa using hs'⟩
      unfold fillCell
      rw [Act.bind_ok (show Act.read (fun c => stripe rd c.sizeX 0) s = (.ok v, s) from Prod.ext hv rfl)]
      unfold setCost
      rw [if_pos (by unfold cellIndex; rw [hs]; simpa using hs')]
    · have := stripe_one_one hrd
      unfold fillCell Act.bind Act.read
      simp only [hs, this]

theorem bind_ub_fst {σ α β : Type} {f : Act σ α} {g : α → Act σ β} {s : σ} (h : (f s).1 = .ub) : (Act.bind f g s).1 = .ub := by
  unfold Act.bind
  rcases hf : f s with ⟨r, s'⟩
  rw [hf] at h
  simp only at h
  subst h
  rfl

theorem fillRow_ub {rd : K → K} (hrd : DoublePrecision rd) {c : Costmap2D K} (hl : c.costs.length = c.sizeX * c.sizeY)
    (hx : c.sizeX < 2) (hy : 0 < c.sizeY) : (fillRow rd 0 c).1 = .ub := by
  unfold fillRow
  exact bind_ub_fst (fillLoop_ub hrd hl hx hy (subU32_wrap hx))

theorem fill_ub {rd : K → K} (hrd : DoublePrecision rd) {c : Costmap2D K} (hl : c.costs.length = c.sizeX * c.sizeY)
    (hx : c.sizeX < 2) (hy : 0 < c.sizeY) : (fill rd c).1 = .ub :=
  Act.forEach_range_ub (k := 0) (P := fun _ s => s = c) hy rfl (fun j hj => absurd hj (by omega))
    fun s hs => by rw [hs]; exact fillRow_ub hrd hl hx hy

/-! ## Printing -/

/-- Decimal digits back to a number. -/
def undigits (l : List Char) : Nat := l.foldl (fun a d => 10 * a + (d.toNat - 48)) 0

theorem digits_of : ∀ v : Fin 256, undigits (Nat.toDigits 10 v.val) = v.val ∧
    (Nat.toDigits 10 v.val).all (fun d => d != ' ' && d != '\n') = true ∧ (Nat.toDigits 10 v.val).isEmpty = false := by
  decide +kernel

theorem digits_cost (v : Cost) : undigits (Nat.toDigits 10 v.toNat) = v.toNat ∧
    (∀ d ∈ Nat.toDigits 10 v.toNat, d ≠ ' ' ∧ d ≠ '\n') ∧ Nat.toDigits 10 v.toNat ≠ [] := by
  obtain ⟨h1, h2, h3⟩ := digits_of ⟨v.toNat, v.toNat_lt⟩
  refine ⟨h1, fun d hd => ?_, fun h => by simp [h] at h3⟩
  have := List.all_eq_true.mp h2 d hd
  simpa using this

/-- A word is determined by the text that starts with it, when it contains no blank. -/
theorem word_inj {a b s t : List Char} (ha : ∀ d ∈ a, d ≠ ' ') (hb : ∀ d ∈ b, d ≠ ' ')
    (h : a ++ ' ' :: s = b ++ ' ' :: t) : a = b ∧ s = t := by
  induction a generalizing b with
  | nil =>
    cases b with
    | nil => simpa using h
    | cons x b => simp at h; exact absurd h.1.symm (hb x (by simp))
  | cons x a ih =>
    cases b with
    | nil => simp at h; exact absurd h.1 (ha x (by simp))
    | cons y b =>
      simp only [List.cons_append, List.cons.injEq] at h
      obtain ⟨rfl, h⟩ := h
      obtain ⟨rfl, rfl⟩ := ih (fun d hd => ha d (by simp [hd])) (fun d hd => hb d (by simp [hd])) h
      exact ⟨rfl, rfl⟩

theorem cellText_inj {v w : Cost} {s t : List Char} (h : cellText v ++ s = cellText w ++ t) : v = w ∧ s = t := by
  obtain ⟨v1, v2, -⟩ := digits_cost v
  obtain ⟨w1, w2, -⟩ := digits_cost w
  unfold cellText at h
  simp only [List.append_assoc, List.cons_append, List.nil_append] at h
  obtain ⟨h1, h2⟩ := word_inj (fun d hd => (v2 d hd).1) (fun d hd => (w2 d hd).1) h
  refine ⟨?_, h2⟩
  rw [h1, w1] at v1
  exact UInt8.toNat_inj.mp v1.symm

theorem cellText_ne {v : Cost} {s t : List Char} : cellText v ++ s ≠ '\n' :: t := by
  obtain ⟨-, v2, v3⟩ := digits_cost v
  unfold cellText
  cases hd : Nat.toDigits 10 v.toNat with
  | nil => exact absurd hd v3
  | cons x l =>
    intro h
    simp at h
    exact (v2 x (by simp [hd])).2 h.1

/-- A line is determined by the text that starts with it. -/
theorem line_inj {r r' : List Cost} {s t : List Char}
    (h : r.flatMap cellText ++ '\n' :: s = r'.flatMap cellText ++ '\n' :: t) : r = r' ∧ s = t := by
  induction r generalizing r' with
  | nil =>
    cases r' with
    | nil => simpa using h
    | cons w r' =>
      simp only [List.flatMap_nil, List.nil_append, List.flatMap_cons, List.append_assoc] at h
      exact absurd h.symm cellText_ne
  | cons v r ih =>
    cases r' with
    | nil =>
      simp only [List.flatMap_nil, List.nil_append, List.flatMap_cons, List.append_assoc] at h
      exact absurd h cellText_ne
    | cons w r' =>
      simp only [List.flatMap_cons, List.append_assoc] at h
      obtain ⟨rfl, h'⟩ := cellText_inj h
      obtain ⟨rfl, rfl⟩ := ih h'
      exact ⟨rfl, rfl⟩

theorem lines_inj {rs rs' : List (List Cost)}
    (h : rs.flatMap (fun r => r.flatMap cellText ++ ['\n']) = rs'.flatMap (fun r => r.flatMap cellText ++ ['\n'])) : rs = rs' := by
  induction rs generalizing rs' with
  | nil =>
    cases rs' with
    | nil => rfl
    | cons r rs' => simp at h
  | cons r rs ih =>
    cases rs' with
    | nil => simp at h
    | cons r' rs' =>
      simp only [List.flatMap_cons, List.append_assoc, List.cons_append, List.nil_append] at h
      obtain ⟨rfl, h'⟩ := line_inj h
      rw [ih h']

/-- The costs in line `i` of the text. -/
def lineCosts (c : Costmap2D K) (i : Nat) : List Cost :=
  (List.range c.sizeY).map fun j => (c.cellCost i j).getD 0

theorem cellCost_some {c : Costmap2D K} (hl : c.costs.length = c.sizeX * c.sizeY) {x y : Nat} (hx : x < c.sizeX)
    (hy : y < c.sizeY) : ∃ v, c.cellCost x y = some v := by
  unfold cellCost
  rw [if_pos ⟨hx, hy⟩, List.getElem?_eq_getElem (by rw [hl]; exact index_lt hx hy)]
  exact ⟨_, rfl⟩

theorem getCost_eq {c : Costmap2D K} (hl : c.costs.length = c.sizeX * c.sizeY) (hs : c.sizeX * c.sizeY < 2 ^ 32) {x y : Nat}
    (hx : x < c.sizeX) (hy : y < c.sizeY) : c.getCost x y = .ok ((c.cellCost x y).getD 0) := by
  obtain ⟨v, hv⟩ := cellCost_some hl hx hy
  rw [hv]
  unfold cellCost at hv
  rw [if_pos ⟨hx, hy⟩] at hv
  unfold getCost cellIndex
  rw [Nat.mod_eq_of_lt (by have := index_lt hx hy; omega), hv]
  rfl

theorem lineText_eq {c : Costmap2D K} (hl : c.costs.length = c.sizeX * c.sizeY) (hs : c.sizeX * c.sizeY < 2 ^ 32) {i : Nat}
    (hi : i < c.sizeX) : c.lineText i = .ok ((c.lineCosts i).flatMap cellText ++ ['\n']) := by
  unfold lineText lineCosts
  have : ∀ l : List Nat, (∀ j ∈ l, j < c.sizeY) →
      l.foldr (fun j rest => (c.getCost i j).bind fun v => rest.bind fun t => .ok (cellText v ++ t)) (.ok ['\n']) =
        .ok ((l.map fun j => (c.cellCost i j).getD 0).flatMap cellText ++ ['\n']) := by
    intro l hl'
    induction l with
    | nil => rfl
    | cons a l ih =>
      rw [List.foldr_cons, ih fun j hj => hl' j (by simp [hj]), getCost_eq hl hs hi (hl' a (by simp))]
      simp
  exact this _ fun j hj => List.mem_range.mp hj

theorem text_eq {c : Costmap2D K} (hl : c.costs.length = c.sizeX * c.sizeY) (hs : c.sizeX * c.sizeY < 2 ^ 32) :
    c.text = .ok (((List.range c.sizeX).map c.lineCosts).flatMap fun r => r.flatMap cellText ++ ['\n']) := by
  unfold text
  have : ∀ l : List Nat, (∀ i ∈ l, i < c.sizeX) →
      l.foldr (fun i rest => (c.lineText i).bind fun a => rest.bind fun t => .ok (a ++ t)) (.ok []) =
        .ok ((l.map c.lineCosts).flatMap fun r => r.flatMap cellText ++ ['\n']) := by
    intro l hl'
    induction l with
    | nil => rfl
    | cons a l ih =>
      rw [List.foldr_cons, ih fun j hj => hl' j (by simp [hj]), lineText_eq hl hs (hl' a (by simp))]
      simp
  exact this _ fun j hj => List.mem_range.mp hj

end Costmap2D
end
end CostMapModel

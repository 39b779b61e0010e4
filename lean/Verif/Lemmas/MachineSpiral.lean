import Verif.Model.MachineSpiral
import Verif.Spec.MachineSpiral
import Verif.Lemmas.Machine
import Verif.Lemmas.Spiral
import Verif.Lemmas.Float
import Verif.Lemmas.RoundedShapes

/-! # Helper lemmas for the spiral iterator on the machine -/

set_option linter.unusedSectionVars false

namespace CostMapModel

/-- Rounding to `double` keeps whole numbers of 53 bits. -/
theorem toDouble_ints : IntsExact toDouble := by
  intro z hz
  exact binRound_exact (by norm_num) ⟨z, 0, by exact_mod_cast hz, by simp⟩

/-- Rounding to nearest does not cross a representable number. -/
theorem toDouble_ge {x k : ℚ} (hk : toDouble k = k) (h : k ≤ x) : k ≤ toDouble x := by
  obtain ⟨-, h2⟩ := binRound_nearest (p := 53) (by norm_num) x
  have hr := (binRound_nearest (p := 53) (by norm_num) k).1
  have hk' : binRound 53 k = k := hk
  rw [hk'] at hr
  have := h2 k hr
  show k ≤ binRound 53 x
  by_contra hc
  push Not at hc
  rw [abs_of_nonneg (by linarith), abs_of_nonneg (by linarith)] at this
  linarith

/-- The square root of the model meets its specification. -/
theorem sqrtDouble_ints : SqrtInts sqrtDouble := by
  intro n hn
  obtain ⟨N, hN⟩ : ∃ N, N = n * 4 ^ 60 := ⟨_, rfl⟩
  obtain ⟨s, hs⟩ : ∃ s, s = Nat.sqrt N := ⟨_, rfl⟩
  obtain ⟨x, hx⟩ : ∃ x : ℚ, x = ((s : ℚ) + if s * s = N then 0 else 1 / 2) / 2 ^ 60 := ⟨_, rfl⟩
  have e : sqrtDouble (n : ℚ) = toDouble x := by
    rw [hx, hs, hN]; unfold sqrtDouble; rw [Rat.num_natCast, Int.toNat_natCast]
  have s1 : s * s ≤ N := by rw [hs]; exact Nat.sqrt_le N
  have hx0 : 0 ≤ x := by rw [hx]; positivity
  have hx1 : (s : ℚ) / 2 ^ 60 ≤ x := by
    rw [hx]; gcongr
    split <;> norm_num
  have hsN : s ≤ 2 ^ 60 * n := by
    have h4 : s * s ≤ (2 ^ 60 * n) * (2 ^ 60 * n) := by
      rcases Nat.eq_zero_or_pos n with h | h
      · subst h; simpa [hN] using s1
      · refine s1.trans ?_
        rw [hN]
        have : n ≤ n * n := Nat.le_mul_of_pos_left n h
        calc n * 4 ^ 60 ≤ n * n * 4 ^ 60 := Nat.mul_le_mul_right _ this
          _ = _ := by ring
    exact Nat.mul_self_le_mul_self_iff.mp h4
  have hxx : x ^ 2 ≤ n + n / 2 ^ 60 := by
    have h1 : (2 ^ 60 * x) ^ 2 ≤ (N : ℚ) + s := by
      have : (2 : ℚ) ^ 60 * x = (s : ℚ) + if s * s = N then 0 else 1 / 2 := by rw [hx]; field_simp
      rw [this]
      split
      · rename_i h
        have : (N : ℚ) = s * s := by exact_mod_cast h.symm
        rw [this]
        have : (0 : ℚ) ≤ s := by positivity
        nlinarith
      · rename_i h
        have h2 : s * s + 1 ≤ N := by omega
        have : (s : ℚ) * s + 1 ≤ N := by exact_mod_cast h2
        nlinarith
    have h2 : (s : ℚ) ≤ 2 ^ 60 * n := by exact_mod_cast hsN
    have h3 : (N : ℚ) = n * 4 ^ 60 := by rw [hN]; push_cast; ring
    have h4 : (2 ^ 60 * x) ^ 2 = x ^ 2 * 4 ^ 60 := by ring
    rw [h4, h3] at h1
    have h5 : x ^ 2 * 4 ^ 60 ≤ (n + n / 2 ^ 60) * 4 ^ 60 := by
      calc x ^ 2 * 4 ^ 60 ≤ n * 4 ^ 60 + 2 ^ 60 * n := by linarith
        _ = _ := by ring
    exact le_of_mul_le_mul_right h5 (by positivity)
  have hp := toDouble_precision x
  rw [abs_of_nonneg hx0] at hp
  have hup := (abs_le.mp hp).2
  have hlo := (abs_le.mp hp).1
  have hy0 : 0 ≤ toDouble x := by
    have : x / 2 ^ 53 ≤ x := div_le_self hx0 (by norm_num)
    linarith
  rw [e]
  constructor
  · have hy : toDouble x ≤ x * (1 + 1 / 2 ^ 53) := by
      rw [mul_add, mul_one, mul_one_div]; linarith
    have h2 : toDouble x ^ 2 ≤ x ^ 2 * (1 + 1 / 2 ^ 53) ^ 2 := by
      calc toDouble x ^ 2 ≤ (x * (1 + 1 / 2 ^ 53)) ^ 2 := pow_le_pow_left₀ hy0 hy 2
        _ = _ := by ring
    have h3 : x ^ 2 * (1 + 1 / 2 ^ 53) ^ 2 ≤ (n + n / 2 ^ 60) * (1 + 1 / 2 ^ 53) ^ 2 :=
      mul_le_mul_of_nonneg_right hxx (by positivity)
    have h4 : ((n : ℚ) + n / 2 ^ 60) * (1 + 1 / 2 ^ 53) ^ 2 ≤ n + n / 2 ^ 51 := by
      have : (0 : ℚ) ≤ n := by positivity
      have e1 : ((n : ℚ) + n / 2 ^ 60) * (1 + 1 / 2 ^ 53) ^ 2 = n * ((1 + 1 / 2 ^ 60) * (1 + 1 / 2 ^ 53) ^ 2) := by ring
      have e2 : (n : ℚ) + n / 2 ^ 51 = n * (1 + 1 / 2 ^ 51) := by ring
      rw [e1, e2]
      exact mul_le_mul_of_nonneg_left (by norm_num) this
    linarith
  · intro k hk
    have hk1 : k * 2 ^ 60 ≤ s := by
      rw [hs, Nat.le_sqrt, hN]
      calc k * 2 ^ 60 * (k * 2 ^ 60) = k * k * 4 ^ 60 := by ring
        _ ≤ _ := Nat.mul_le_mul_right _ hk
    have hk2 : (k : ℚ) ≤ x := by
      refine le_trans ?_ hx1
      rw [le_div_iff₀ (by positivity)]
      exact_mod_cast hk1
    refine toDouble_ge ?_ hk2
    have hk3 : k < 2 ^ 53 := by
      by_contra hc
      push Not at hc
      nlinarith
    have := toDouble_ints k (by rw [abs_of_nonneg (by positivity)]; exact_mod_cast hk3)
    exact_mod_cast this

section
variable {K : Type} [Field K] [LinearOrder K] [IsStrictOrderedRing K] [FloorRing K] {rd sqrt : K → K}
open CostMap

/-- The truncated square root is the integer square root. -/
theorem truncSqrt_eq (hs : SqrtInts sqrt) {n : Nat} (hn : n < 2 ^ 51) : truncToInt (sqrt (n : K)) = (Nat.sqrt n : Nat) := by
  obtain ⟨h1, h2⟩ := hs n (by omega)
  have h3 := h2 (Nat.sqrt n) (Nat.sqrt_le n)
  have h0 : (0 : K) ≤ sqrt n := le_trans (by positivity) h3
  have h4 : sqrt (n : K) < (Nat.sqrt n : K) + 1 := by
    by_contra hc
    push Not at hc
    have h5 : ((Nat.sqrt n : K) + 1) ^ 2 ≤ sqrt (n : K) ^ 2 := pow_le_pow_left₀ (by positivity) hc 2
    have h6 : n + 1 ≤ (Nat.sqrt n + 1) ^ 2 := by have := Nat.lt_succ_sqrt' n; simp only [Nat.succ_eq_add_one] at this; omega
    have h7 : (n : K) + 1 ≤ ((Nat.sqrt n : K) + 1) ^ 2 := by exact_mod_cast h6
    have h8 : (n : K) / 2 ^ 51 < 1 := by
      rw [div_lt_one (by positivity)]; exact_mod_cast hn
    linarith
  unfold truncToInt
  rw [if_pos h0]
  exact Int.floor_eq_iff.mpr ⟨by exact_mod_cast h3, by exact_mod_cast h4⟩

theorem normM_eq (hi : IntsExact rd) (hs : SqrtInts sqrt) {x y : Int} (hx : |x| ≤ 2 ^ 24 + 1) (hy : |y| ≤ 2 ^ 24 + 1) :
    normM rd sqrt x y = some ((Nat.sqrt (x * x + y * y).toNat : Nat) : Int) := by
  have x1 : x * x ≤ (2 ^ 24 + 1) * (2 ^ 24 + 1) := by
    rw [← abs_mul_abs_self x]; exact mul_le_mul hx hx (abs_nonneg _) (by norm_num)
  have y1 : y * y ≤ (2 ^ 24 + 1) * (2 ^ 24 + 1) := by
    rw [← abs_mul_abs_self y]; exact mul_le_mul hy hy (abs_nonneg _) (by norm_num)
  have x0 := mul_self_nonneg x
  have y0 := mul_self_nonneg y
  obtain ⟨n, hn⟩ := Int.eq_ofNat_of_zero_le (add_nonneg x0 y0)
  have ex : rd ((x : K) * x) = ((x * x : Int) : K) := by
    have := hi (x * x) (by rw [abs_of_nonneg x0]; omega)
    push_cast at this ⊢; exact this
  have ey : rd ((y : K) * y) = ((y * y : Int) : K) := by
    have := hi (y * y) (by rw [abs_of_nonneg y0]; omega)
    push_cast at this ⊢; exact this
  have es : rd (((x * x : Int) : K) + ((y * y : Int) : K)) = (n : K) := by
    have := hi (x * x + y * y) (by rw [abs_of_nonneg (by omega)]; omega)
    rw [hn] at this
    have e2 : ((x * x : Int) : K) + ((y * y : Int) : K) = (((n : Nat) : Int) : K) := by rw [← hn]; push_cast; ring
    rw [e2, this]; simp
  have hn' : n < 2 ^ 51 := by omega
  unfold normM I32.ofReal
  rw [ex, ey, es, truncSqrt_eq hs hn', hn, Int.toNat_natCast]
  have : Nat.sqrt n ≤ 2 ^ 26 := by
    have : Nat.sqrt n < 2 ^ 26 := Nat.sqrt_lt'.mpr (by omega)
    omega
  exact i32_eq (by omega) (by omega)

theorem signum_abs (v : Int) : |signum v| ≤ 1 := by
  unfold signum
  split <;> split <;> simp

theorem ringStepM_eq (hi : IntsExact rd) (hs : SqrtInts sqrt) {d : Nat} {p : Idx} (hx : |p.x| ≤ 2 ^ 24) (hy : |p.y| ≤ 2 ^ 24) :
    ringStepM rd sqrt d p = some (ringStep d p) := by
  have sx := abs_le.mp (signum_abs p.x)
  have sy := abs_le.mp (signum_abs p.y)
  have hx' := abs_le.mp hx
  have hy' := abs_le.mp hy
  unfold ringStepM ringStep normIs
  simp only [I32.add]
  rw [i32_eq (by omega) (by omega), i32_eq (by omega) (by omega), Option.bind_some, Option.bind_some,
    normM_eq hi hs (abs_le.mpr ⟨by omega, by omega⟩) (by omega), normM_eq hi hs (by omega) (abs_le.mpr ⟨by omega, by omega⟩),
    Option.bind_some, Option.bind_some]
  simp only [decide_eq_true_eq, Nat.cast_inj]
  split
  · rfl
  · split <;> rfl

namespace SpiralIter

/-- Whether a cell is stored at distance `d`, when nothing overflows. -/
def keepRd (rd : K → K) (it : SpiralIter K) (d : Nat) (i : Idx) : Bool :=
  inRange i it.size && (if d = it.nRings ∨ d + 1 = it.nRings then
    match positionFromIndexRd rd i it.length it.position it.resolution it.size 0 with
    | none => false
    | some p => decide (rd (rd (rd (p.x - it.center.x) ^ 2) + rd (rd (p.y - it.center.y) ^ 2)) ≤ it.radiusSquare)
    else true)

theorem positionFromIndexI_zero {i size : Idx} (hx : size.x ≤ 2 ^ 29) (hy : size.y ≤ 2 ^ 29) (len pos : Vec K) (res : K) :
    positionFromIndexI rd i len pos res size 0 = some (positionFromIndexRd rd i len pos res size 0) := by
  unfold positionFromIndexI positionFromIndexRd
  split
  · rename_i h
    obtain ⟨a, b, c, d⟩ := inRange_iff.mp h
    have e : unwrapIdx i size 0 = i := by simp [unwrapIdx]
    simp only [unwrapI, if_true, Option.bind_some, e]
    unfold centreI I32.neg centreRd
    rw [i32_eq (by omega) (by omega), i32_eq (by omega) (by omega)]
    simp
  · rfl

theorem keepsM_eq {it : SpiralIter K} (hx : it.size.x ≤ 2 ^ 29) (hy : it.size.y ≤ 2 ^ 29) (hn : it.nRings < 2 ^ 32) {d : Nat}
    (hd : 1 ≤ d) (hd' : d < 2 ^ 31) (i : Idx) : it.keepsM rd d i = .ok (it.keepRd rd d i) := by
  unfold keepsM keepRd
  have e : (d = (it.nRings + 4294967295) % 4294967296) ↔ d + 1 = it.nRings := by omega
  split
  · rename_i h
    simp only [e, h, Bool.true_and]
    split
    · unfold isInsideM
      rw [positionFromIndexI_zero hx hy]
      obtain ⟨p, hp⟩ : ∃ p, positionFromIndexRd rd i it.length it.position it.resolution it.size 0 = some p := by
        unfold positionFromIndexRd; rw [if_pos h]; exact ⟨_, rfl⟩
      rw [hp]
    · rfl
  · rename_i h
    simp [h]

theorem ringM_eq (hi : IntsExact rd) (hs : SqrtInts sqrt) {it : SpiralIter K} (hx : it.size.x ≤ 2 ^ 29)
    (hy : it.size.y ≤ 2 ^ 29) (hn : it.nRings < 2 ^ 32) (hc : it.indexCenter.In it.size) {d : Nat} (hd : 1 ≤ d)
    (hd' : d ≤ 2 ^ 24) : ∀ (fuel : Nat) (p : Idx) (acc os : List Idx), ringFrom d fuel p = some os →
    (∀ o ∈ os, |o.x| ≤ 2 ^ 24 ∧ |o.y| ≤ 2 ^ 24) →
    it.ringM rd sqrt d fuel p acc =
      .ok (((os.filter fun o => it.keepRd rd d (o + it.indexCenter)).map (· + it.indexCenter)).reverse ++ acc) := by
  intro fuel
  induction fuel with
  | zero => intro p acc os h _; cases h
  | succ fuel ih =>
    intro p acc os h hb
    obtain ⟨c1, c2, c3, c4⟩ := hc
    have hp : p ∈ os := by
      unfold ringFrom at h
      simp only at h
      split at h
      · cases h; simp
      · obtain ⟨t, -, rfl⟩ := Option.map_eq_some_iff.mp h; simp
    obtain ⟨px, py⟩ := hb p hp
    have px' := abs_le.mp px
    have py' := abs_le.mp py
    have e1 : I32.both I32.add p it.indexCenter = some (p + it.indexCenter) :=
      both_eq (i32_eq (z := p.x + it.indexCenter.x) (by omega) (by omega))
        (i32_eq (z := p.y + it.indexCenter.y) (by omega) (by omega))
    unfold ringM
    rw [e1, ringStepM_eq hi hs px py]
    simp only [Res.ofOption, Res.bind, keepsM_eq (it := it) (rd := rd) hx hy hn hd (by omega) (p + it.indexCenter)]
    unfold ringFrom at h
    simp only at h
    split
    · rename_i h1
      rw [if_pos h1] at h
      cases h
      by_cases hk : it.keepRd rd d (p + it.indexCenter) = true
      · simp [hk]
      · simp [hk]
    · rename_i h1
      rw [if_neg h1] at h
      obtain ⟨t, ht, rfl⟩ := Option.map_eq_some_iff.mp h
      rw [ih _ _ _ ht (fun o ho => hb o (List.mem_cons_of_mem _ ho))]
      by_cases hk : it.keepRd rd d (p + it.indexCenter) = true
      · simp [hk]
      · simp [hk]

/-- The cells ring `d` contributes, in the order they are visited. -/
def ringCellsM (rd : K → K) (it : SpiralIter K) (d : Nat) : List Idx :=
  match ringOffsets d with
  | none => []
  | some os => ((os.filter fun o => it.keepRd rd d (o + it.indexCenter)).map (· + it.indexCenter)).reverse

/-- What the constructor's iterator keeps all along. -/
structure OkM (it : SpiralIter K) : Prop where
  x : it.size.x ≤ 2 ^ 29
  y : it.size.y ≤ 2 ^ 29
  rings : it.nRings ≤ 2 ^ 24
  centre : it.indexCenter.In it.size

theorem generateRingM_at' (hi : IntsExact rd) (hs : SqrtInts sqrt) {it : SpiralIter K} (ok : it.OkM) {k : Nat}
    (hk : k < it.nRings) :
    (it.at' k []).generateRingM rd sqrt = .ok (it.at' (k + 1) (it.ringCellsM rd (k + 1))) := by
  obtain ⟨os, h, -, mem⟩ := ringOffsets_spec (d := k + 1) (by omega)
  have hr := ok.rings
  have e : (k + 1) % 4294967296 = k + 1 := Nat.mod_eq_of_lt (by omega)
  unfold generateRingM ringCellsM
  simp only [at', h, e]
  rw [i32_eq (by omega) (by omega)]
  simp only [Res.ofOption, Res.bind]
  have := ringM_eq (rd := rd) hi hs (it := it.at' k []) ok.x ok.y (by show it.nRings < 2 ^ 32; omega) ok.centre (d := k + 1) (by omega)
    (by omega) _ _ [] os h (by
      intro o ho
      obtain ⟨a, b, c, d⟩ := inAnnulus_box ((mem o).mp ho)
      exact ⟨abs_le.mpr ⟨by omega, by omega⟩, abs_le.mpr ⟨by omega, by omega⟩⟩)
  simp only [at', List.append_nil] at this
  rw [this]
  rfl

/-- The loop, for a body that reads `f` of the current cell. -/
theorem visitsM {β : Type} (hi : IntsExact rd) (hs : SqrtInts sqrt) {it : SpiralIter K} (ok : it.OkM)
    (g : SpiralIter K → Res β) (f : Idx → β) (P : Idx → Prop)
    (hg : ∀ k i ps, P i → g (it.at' k (i :: ps)) = .ok (f i)) (j : Nat) :
    ∀ (k : Nat) (ps : List Idx), k + j = it.nRings →
    (ps ≠ [] ∨ k = it.nRings) → (∀ i, k < i → i < it.nRings → it.ringCellsM rd i ≠ []) →
    (∀ i ∈ ps, P i) → (∀ d, k < d → d ≤ it.nRings → ∀ i ∈ it.ringCellsM rd d, P i) →
    Visits ⟨isPastEnd, g, nextM rd sqrt⟩ (it.at' k ps)
      ((ps ++ (List.range' (k + 1) j).flatMap (it.ringCellsM rd)).map f) := by
  induction j with
  | zero =>
    intro k ps hk _ _ hP _
    have hk' : k = it.nRings := by omega
    simp only [List.range'_zero, List.flatMap_nil, List.append_nil]
    induction ps with
    | nil =>
      refine .done ?_
      simp [isPastEnd, at', hk']
    | cons p ps ih =>
      refine .step (s' := it.at' k ps) ?_ (hg _ _ _ (hP p (by simp))) ?_
        (ih (Or.inr hk') (fun i hi => hP i (List.mem_cons_of_mem _ hi)))
      · simp [isPastEnd, at']
      · simp only [nextM, at', isPastEnd, hk']
        cases ps <;> simp
  | succ j ihj =>
    intro k ps hk hps hring hP hPr
    have hps' : ps ≠ [] := by
      rcases hps with h | h
      · exact h
      · omega
    induction ps with
    | nil => exact absurd rfl hps'
    | cons p ps ih =>
      have hp := hg k p ps (hP p (by simp))
      cases ps with
      | nil =>
        have hne : ¬ k = it.nRings := by omega
        refine .step (s' := it.at' (k + 1) (it.ringCellsM rd (k + 1))) ?_ hp ?_ ?_
        · simp [isPastEnd, at']
        · have := generateRingM_at' hi hs ok (k := k) (by omega)
          simp only [nextM, at', isPastEnd, hne, decide_false, List.isEmpty_nil, Bool.false_and, Bool.not_false,
            Bool.and_self, if_true]
          exact this
        · simp only [List.append_eq, List.nil_append]
          rw [List.range'_succ, List.flatMap_cons]
          refine ihj (k + 1) _ (by omega) ?_ (fun i h1 h2 => hring i (by omega) h2)
            (hPr (k + 1) (by omega) (by omega)) (fun d h1 h2 => hPr d (by omega) h2)
          by_cases h : k + 1 = it.nRings
          · exact Or.inr h
          · exact Or.inl (hring (k + 1) (by omega) (by omega))
      | cons q qs =>
        refine .step (s' := it.at' k (q :: qs)) ?_ hp ?_
          (ih (Or.inl (by simp)) (fun i hi => hP i (List.mem_cons_of_mem _ hi)) (by simp))
        · simp [isPastEnd, at']
        · simp [nextM, at']

theorem mem_ringCellsM (it : SpiralIter K) {d : Nat} (hd : 0 < d) (i : Idx) :
    i ∈ it.ringCellsM rd d ↔ InAnnulus d (i - it.indexCenter) ∧ it.keepRd rd d i = true := by
  obtain ⟨os, h, -, mem⟩ := ringOffsets_spec hd
  unfold ringCellsM
  simp only [h, List.mem_reverse, List.mem_map, List.mem_filter, mem]
  constructor
  · rintro ⟨o, ⟨h1, h2⟩, rfl⟩
    have e : o + it.indexCenter - it.indexCenter = o := by ext <;> simp
    rw [e]; exact ⟨h1, h2⟩
  · rintro ⟨h1, h2⟩
    have e : i - it.indexCenter + it.indexCenter = i := by ext <;> simp
    exact ⟨_, ⟨h1, by rw [e]; exact h2⟩, e⟩

theorem ringCellsM_nodup (it : SpiralIter K) {d : Nat} (hd : 0 < d) : (it.ringCellsM rd d).Nodup := by
  obtain ⟨os, h, nd, -⟩ := ringOffsets_spec hd
  unfold ringCellsM
  simp only [h]
  rw [List.nodup_reverse]
  refine List.Nodup.map ?_ (nd.filter _)
  intro a b hab
  have h1 := congrArg Idx.x hab
  have h2 := congrArg Idx.y hab
  simp only [Idx.add_x, Idx.add_y] at h1 h2
  exact Idx.ext (by omega) (by omega)

/-- The current radius of a cell on ring `d`. -/
theorem getCurrentRadiusM_eq (hs : SqrtInts sqrt) {it : SpiralIter K} {d : Nat} (hd : d ≤ 46339) {i : Idx}
    (hi : InAnnulus d (i - it.indexCenter)) (k : Nat) (ps : List Idx) :
    (it.at' k (i :: ps)).getCurrentRadiusM rd sqrt = .ok (rd ((d : K) * it.resolution)) := by
  obtain ⟨b1, b2, b3, b4⟩ := inAnnulus_box hi
  obtain ⟨o, ho⟩ : ∃ o, o = i - it.indexCenter := ⟨_, rfl⟩
  rw [← ho] at hi b1 b2 b3 b4
  have hd2 : ((d : Int) + 1) ^ 2 ≤ 46340 ^ 2 := pow_le_pow_left₀ (by omega) (by omega) 2
  have h2 := hi.2
  have x0 := sq_nonneg o.x
  have y0 := sq_nonneg o.y
  have e1 : I32.both I32.sub i it.indexCenter = some o := by
    rw [ho] at b1 b2 b3 b4 ⊢
    simp only [Idx.sub_x, Idx.sub_y] at b1 b2 b3 b4
    exact both_eq (i32_eq (z := i.x - it.indexCenter.x) (by omega) (by omega))
      (i32_eq (z := i.y - it.indexCenter.y) (by omega) (by omega))
  have eR : Nat.sqrt (o.x * o.x + o.y * o.y).toNat = d := by
    have : normIs d o.x o.y = true := normIs_iff.mpr hi
    simpa [normIs] using this
  unfold getCurrentRadiusM
  simp only [deref, at', List.head?_cons, Res.ofOption, Res.bind, e1]
  obtain ⟨n, hn⟩ := Int.eq_ofNat_of_zero_le (add_nonneg (mul_self_nonneg o.x) (mul_self_nonneg o.y))
  have hn2 : (n : Int) < 46340 ^ 2 := by rw [← hn]; nlinarith
  have sx : o.x * o.x = o.x ^ 2 := by ring
  have sy : o.y * o.y = o.y ^ 2 := by ring
  simp only [I32.mul, I32.add]
  rw [i32_eq (by omega) (by omega), Option.bind_some, i32_eq (by omega) (by omega), Option.bind_some,
    i32_eq (by omega) (by omega), Option.bind_some]
  have hn3 : n < 2 ^ 51 := by omega
  have := truncSqrt_eq (K := K) hs hn3
  unfold I32.ofReal
  rw [hn]
  rw [hn, Int.toNat_natCast] at eR
  rw [Int.cast_natCast, this, eR, i32_eq (by omega) (by omega)]
  simp

end SpiralIter
end
end CostMapModel

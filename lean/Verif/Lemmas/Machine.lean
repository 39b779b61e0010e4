import Verif.Model.Machine
import Verif.Spec.Machine
import Verif.Lemmas.Rounded
import Verif.Lemmas.Index
import Verif.Lemmas.Iteration
import Verif.Lemmas.Move

/-!
# When 32-bit index arithmetic does not overflow
-/

set_option linter.unusedSectionVars false

namespace CostMapModel
open CostMap

theorem i32_eq {z : Int} (h : -2147483648 ≤ z) (h' : z < 2147483648) : i32 z = some z := if_pos ⟨h, h'⟩

theorem i32_none {z : Int} (h : z < -2147483648 ∨ 2147483648 ≤ z) : i32 z = none := if_neg (by omega)

theorem both_eq {f : Int → Int → Option Int} {a b : Idx} {x y : Int} (hx : f a.x b.x = some x) (hy : f a.y b.y = some y) :
    I32.both f a b = some ⟨x, y⟩ := by
  unfold I32.both; rw [hx, hy]; rfl

/-- The machine's wrapping. -/
theorem wrapI_eq {i n : Int} (hn : 0 < n) (hn' : n < 2147483648) (h : -2147483648 < i - n) (h' : i < 2147483648) :
    wrapI i n = some (wrap1 i n) := by
  have tail : ∀ j : Int, 0 ≤ j → j < 2147483648 → I32.rem j n = some (wrap1 j n) := by
    intro j h0 h1
    unfold I32.rem I32.div wrap1
    rw [if_neg (by omega), Int.tdiv_eq_ediv_of_nonneg h0, Int.tmod_eq_emod_of_nonneg h0]
    have a0 := Int.ediv_nonneg h0 hn.le
    have a1 := Int.ediv_le_self n h0
    have b0 := Int.emod_nonneg j hn.ne'
    have b1 := Int.emod_lt_of_pos j hn
    rw [i32_eq (by omega) (by omega)]
    exact i32_eq (by omega) (by omega)
  unfold wrapI
  split
  · rename_i h0
    have q0 : 0 ≤ -i := by omega
    have e0 := Int.ediv_nonneg q0 hn.le
    have e1 := Int.ediv_le_self n q0
    have e2 := Int.mul_ediv_add_emod (-i) n
    have e3 := Int.emod_nonneg (-i) hn.ne'
    have e4 := Int.emod_lt_of_pos (-i) hn
    have e5 : (-i / n + 1) * n = n * (-i / n) + n := by ring
    have s1 : I32.neg i = some (-i) := i32_eq (by omega) (by omega)
    have s2 : I32.div (-i) n = some (-i / n) := by
      unfold I32.div
      rw [if_neg (by omega), Int.tdiv_eq_ediv_of_nonneg q0]
      exact i32_eq (by omega) (by omega)
    have e6 : -i / n + 1 < 2147483648 := by
      have : -i / n + 1 ≤ (-i / n + 1) * n := by nlinarith
      omega
    have s3 : I32.add (-i / n) 1 = some (-i / n + 1) := i32_eq (by omega) (by omega)
    have s4 : I32.mul (-i / n + 1) n = some ((-i / n + 1) * n) := i32_eq (by omega) (by omega)
    have s5 : I32.add i ((-i / n + 1) * n) = some (i + (-i / n + 1) * n) := i32_eq (by omega) (by omega)
    rw [s1, Option.bind_some, s2, Option.bind_some, s3, Option.bind_some, s4, Option.bind_some, s5, Option.bind_some,
      tail _ (by omega) (by omega)]
    exact congrArg some (Int.add_mul_emod_self_right i (-i / n + 1) n)
  · exact tail i (by omega) h'

theorem clampI_eq {i n : Int} (hn : 0 < n) (hn' : n < 2147483648) : clampI i n = some (clamp1 i n) := by
  unfold clampI clamp1
  split
  · rfl
  · split
    · exact i32_eq (by omega) (by omega)
    · rfl

/-- The numbers `unwrapI` and `bufferI` deal with. -/
structure IdxOk (i size start : Idx) : Prop where
  size_x : 0 < size.x ∧ size.x ≤ 2 ^ 29
  size_y : 0 < size.y ∧ size.y ≤ 2 ^ 29
  start_x : 0 ≤ start.x ∧ start.x < size.x
  start_y : 0 ≤ start.y ∧ start.y < size.y
  x : -2 ^ 30 ≤ i.x ∧ i.x ≤ 2 ^ 30
  y : -2 ^ 30 ≤ i.y ∧ i.y ≤ 2 ^ 30

theorem IdxOk.of_in {i size start : Idx} (hs : start.In size) (hx : size.x ≤ 2 ^ 29) (hy : size.y ≤ 2 ^ 29) (hi : i.In size) :
    IdxOk i size start := by
  obtain ⟨s1, s2, s3, s4⟩ := hs
  obtain ⟨i1, i2, i3, i4⟩ := hi
  exact ⟨by omega, by omega, by omega, by omega, by omega, by omega⟩

theorem unwrapI_eq {i size start : Idx} (h : IdxOk i size start) : unwrapI i size start = some (unwrapIdx i size start) := by
  obtain ⟨a, b, c, d, e, f⟩ := h
  unfold unwrapI unwrapIdx
  split
  · rfl
  · rw [both_eq (i32_eq (z := i.x - start.x) (by omega) (by omega)) (i32_eq (z := i.y - start.y) (by omega) (by omega))]
    exact both_eq (wrapI_eq a.1 (by omega) (by simp only; omega) (by simp only; omega))
      (wrapI_eq b.1 (by omega) (by simp only; omega) (by simp only; omega))

theorem bufferI_eq {i size start : Idx} (h : IdxOk i size start) : bufferI i size start = some (bufferIdx i size start) := by
  obtain ⟨a, b, c, d, e, f⟩ := h
  unfold bufferI bufferIdx
  split
  · rfl
  · rw [both_eq (i32_eq (z := i.x + start.x) (by omega) (by omega)) (i32_eq (z := i.y + start.y) (by omega) (by omega))]
    exact both_eq (wrapI_eq a.1 (by omega) (by simp only; omega) (by simp only; omega))
      (wrapI_eq b.1 (by omega) (by simp only; omega) (by simp only; omega))

theorem ofOption_some {σ α β : Type} (a : α) (f : α → Act σ β) : Act.bind (Act.ofOption (some a)) f = f a := by
  funext s; rfl

/-- Two iterators that step alike on the states a loop meets show it the same values. -/
theorem visits_transfer {σ β : Type} {I J : IterOps σ β} (P : σ → Prop) (hp : J.isPastEnd = I.isPastEnd)
    (hd : J.deref = I.deref)
    (hn : ∀ s, P s → I.isPastEnd s = false → J.next s = I.next s ∧ ∀ s', I.next s = .ok s' → P s')
    {s : σ} {xs : List β} (h : Visits I s xs) (hs : P s) : Visits J s xs := by
  induction h with
  | done h => exact .done (by rw [hp]; exact h)
  | step h1 h2 h3 _ ih =>
    obtain ⟨a, b⟩ := hn _ hs h1
    exact .step (by rw [hp]; exact h1) (by rw [hd]; exact h2) (by rw [a]; exact h3) (ih (b _ h3))

section
variable {K : Type} [Field K] [LinearOrder K] [IsStrictOrderedRing K] [FloorRing K]

/-- Truncation does not leave a range of integers. -/
theorem truncToInt_abs {x : K} {B : Int} (h : |x| ≤ B) : -B ≤ truncToInt x ∧ truncToInt x ≤ B := by
  obtain ⟨h1, h2⟩ := abs_le.mp h
  unfold truncToInt
  split
  · rename_i h0
    have : ⌊x⌋ ≤ B := by have := Int.floor_le x; exact_mod_cast this.trans h2
    have : 0 ≤ ⌊x⌋ := Int.floor_nonneg.mpr h0
    omega
  · rename_i h0
    have : ⌊-x⌋ ≤ B := by have := Int.floor_le (-x); exact_mod_cast this.trans (by linarith : -x ≤ (B : K))
    have : 0 ≤ ⌊-x⌋ := Int.floor_nonneg.mpr (by linarith)
    omega

namespace Axis
variable {rd : K → K} {n : Int} {pos len r T : K}

/-- The number that is converted to `int` for a position at most `2^29` cells from the centre. -/
theorem quotient_bound (h : Axis rd n pos len r T) (hrd : DoublePrecision rd) (hn : n ≤ 2 ^ 29) {p : K}
    (hp : |p - pos| ≤ 2 ^ 29 * r) : |rd (rd (rd (p - toOriginRd rd len) - pos) / r)| ≤ 2 ^ 30 := by
  have g1 := h.nr_pos; have g2 := h.r_pos; have g3 := h.pos_le; have g4 := abs_nonneg pos
  have ht := h.tame
  have hn' : (n : K) * r ≤ 2 ^ 29 * r := by
    have : (n : K) ≤ 2 ^ 29 := by exact_mod_cast hn
    nlinarith
  have o := h.origin_err hrd
  have hT0 := h.T_pos
  obtain ⟨S, hS⟩ : ∃ S, S = T + 2 ^ 29 * r := ⟨_, rfl⟩
  have hS0 : 0 ≤ S := by rw [hS]; positivity
  have hST : T ≤ S := by rw [hS]; have : 0 ≤ 2 ^ 29 * r := by positivity
                         linarith
  have hS1 : 32 * (S / 2 ^ 53) ≤ r := by
    rw [← mul_div_assoc, div_le_iff₀ (by positivity), hS]
    nlinarith
  have o' : |toOriginRd rd len - n * r / 2| ≤ 3 * (S / 2 ^ 53) := by
    have : T / 2 ^ 53 ≤ S / 2 ^ 53 := by gcongr
    linarith
  generalize toOriginRd rd len = q at o o'
  have a1 : |rd (p - q) - (p - n * r / 2)| ≤ 5 * (S / 2 ^ 53) := by
    have := rd_step1 (x := p - q) (y := p - n * r / 2) (c := 3) hrd hS0 (by norm_num) (by
      rw [show p - q - (p - n * r / 2) = -(q - n * r / 2) by ring, abs_neg]; exact o') (by
      have : |p| ≤ |pos| + 2 ^ 29 * r := by
        have := abs_add_le (p - pos) pos
        rw [sub_add_cancel] at this; linarith
      have := abs_sub p ((n : K) * r / 2)
      rw [abs_of_nonneg (by linarith : 0 ≤ (n : K) * r / 2)] at this
      rw [hS]; linarith)
    linarith
  generalize rd (p - q) = q1 at a1
  have a2 : |rd (q1 - pos) - (p - pos - n * r / 2)| ≤ 7 * (S / 2 ^ 53) := by
    have := rd_step1 (x := q1 - pos) (y := p - pos - n * r / 2) (c := 5) hrd hS0 (by norm_num) (by
      rw [show q1 - pos - (p - pos - n * r / 2) = q1 - (p - n * r / 2) by ring]; exact a1) (by
      have := abs_sub (p - pos) ((n : K) * r / 2)
      rw [abs_of_nonneg (by linarith : 0 ≤ (n : K) * r / 2)] at this
      rw [hS]; linarith)
    linarith
  generalize rd (q1 - pos) = q2 at a2
  have a3 : |q2| ≤ (2 ^ 29 + 2 ^ 28 + 1) * r := by
    have h1 := abs_add_le (q2 - (p - pos - n * r / 2)) (p - pos - n * r / 2)
    rw [sub_add_cancel] at h1
    have h2 := abs_sub (p - pos) ((n : K) * r / 2)
    rw [abs_of_nonneg (by linarith : 0 ≤ (n : K) * r / 2)] at h2
    linarith
  have a4 : |q2 / r| ≤ 2 ^ 29 + 2 ^ 28 + 1 := by
    rw [abs_div, abs_of_pos g2, div_le_iff₀ g2]; exact a3
  have a5 := hrd (q2 / r)
  have a6 := abs_add_le (rd (q2 / r) - q2 / r) (q2 / r)
  rw [sub_add_cancel] at a6
  have a7 : |q2 / r| / 2 ^ 53 ≤ 1 := by rw [div_le_iff₀ (by positivity)]; linarith
  linarith

theorem cellI_eq (h : Axis rd n pos len r T) (hrd : DoublePrecision rd) (hn : n ≤ 2 ^ 29) {p : K}
    (hp : |p - pos| ≤ 2 ^ 29 * r) :
    cellI rd p len pos r = some (cellRd rd p len pos r) ∧
      -2 ^ 30 ≤ cellRd rd p len pos r ∧ cellRd rd p len pos r ≤ 2 ^ 30 := by
  have hq := h.quotient_bound hrd hn hp
  have hb := truncToInt_abs (B := 2 ^ 30) (by exact_mod_cast hq)
  unfold cellI cellRd I32.ofReal
  generalize truncToInt (rd (rd (rd (p - toOriginRd rd len) - pos) / r)) = z at hb
  refine ⟨?_, by omega, by omega⟩
  rw [i32_eq (by omega) (by omega)]
  exact i32_eq (by omega) (by omega)

end Axis

/-- The number of cells of a move that goes at most `2^29` cells. -/
theorem indexShift1I_eq {rd : K → K} (hrd : DoublePrecision rd) {p pos r : K} (hr : 0 < r) (hp : |p - pos| ≤ 2 ^ 29 * r) :
    indexShift1I rd (rd (p - pos)) r = some (indexShift1Rd rd (rd (p - pos)) r) ∧
      -2 ^ 30 ≤ indexShift1Rd rd (rd (p - pos)) r ∧ indexShift1Rd rd (rd (p - pos)) r ≤ 2 ^ 30 := by
  have grow : ∀ {x B : K}, |x| ≤ B → |rd x| ≤ B + B / 2 ^ 53 := by
    intro x B hx
    have a := hrd x
    have b := abs_add_le (rd x - x) x
    rw [sub_add_cancel] at b
    have : |x| / 2 ^ 53 ≤ B / 2 ^ 53 := by gcongr
    linarith
  have a1 := grow hp
  generalize rd (p - pos) = q at a1
  have a2 : |q / r| ≤ 2 ^ 29 + 1 := by
    rw [abs_div, abs_of_pos hr, div_le_iff₀ hr]
    have : 2 ^ 29 * r / 2 ^ 53 ≤ r := by rw [div_le_iff₀ (by positivity)]; nlinarith
    linarith
  have a3 : |rd (q / r)| ≤ 2 ^ 29 + 2 := by
    have := grow a2
    have e : ((2 : K) ^ 29 + 1) / 2 ^ 53 ≤ 1 := by rw [div_le_iff₀ (by positivity)]; norm_num
    linarith
  unfold indexShift1I indexShift1Rd cellsRd I32.ofReal
  generalize rd (q / r) = t at a3
  have a4 : |t + 1 / 2 * (if 0 < t then 1 else -1)| ≤ 2 ^ 29 + 3 := by
    obtain ⟨h1, h2⟩ := abs_le.mp a3
    rw [abs_le]
    split <;> constructor <;> linarith
  have a5 : |rd (t + 1 / 2 * (if 0 < t then 1 else -1))| ≤ 2 ^ 30 := by
    have := grow a4
    have e : ((2 : K) ^ 29 + 3) / 2 ^ 53 ≤ 1 := by rw [div_le_iff₀ (by positivity)]; norm_num
    have e' : ((2 : K) ^ 29 + 4) ≤ 2 ^ 30 := by norm_num
    linarith
  have hb := truncToInt_abs (x := rd (t + 1 / 2 * (if 0 < t then 1 else -1))) (B := 2 ^ 30) (by rw [Int.cast_pow, Int.cast_ofNat]; exact a5)
  generalize truncToInt (rd (t + 1 / 2 * (if 0 < t then 1 else -1))) = z at hb
  refine ⟨?_, by omega, by omega⟩
  rw [i32_eq (by omega) (by omega)]
  exact i32_eq (by omega) (by omega)

/-- Dropping the cells along an axis. -/
theorem dropAxisI_eq {m : CostMap K} (hs : m.startIndex.In m.size) (hm : m.Small) {s : Idx}
    (hx : -2 ^ 30 ≤ s.x ∧ s.x ≤ 2 ^ 30) (hy : -2 ^ 30 ≤ s.y ∧ s.y ≤ 2 ^ 30) (i : Fin 2) :
    dropAxisI s i m = dropAxis clamp1 s i m := by
  have hz : 0 < comp m.size i ∧ comp m.size i ≤ 2 ^ 29 ∧ 0 ≤ comp m.startIndex i ∧ comp m.startIndex i < comp m.size i ∧
      -2 ^ 30 ≤ comp s i ∧ comp s i ≤ 2 ^ 30 := by
    obtain ⟨s1, s2, s3, s4⟩ := hs
    have := hm.x; have := hm.y
    unfold comp
    split <;> refine ⟨?_, ?_, ?_, ?_, ?_, ?_⟩ <;> omega
  unfold dropAxisI dropAxis
  simp only
  generalize comp m.size i = sz at hz
  generalize comp m.startIndex i = st at hz
  generalize comp s i = sh at hz
  obtain ⟨z1, z2, z3, z4, z5, z6⟩ := hz
  have habs : |sh| ≤ 2 ^ 30 := abs_le.mpr ⟨z5, z6⟩
  have habs0 := abs_nonneg sh
  by_cases h0 : sh ≠ 0
  · rw [if_pos h0, if_pos h0, show I32.abs sh = some |sh| from i32_eq (by omega) (by omega), ofOption_some]
    by_cases h1 : |sh| ≥ sz
    · rw [if_pos h1, if_pos h1]
    · rw [if_neg h1, if_neg h1]
      obtain ⟨sg, hsg⟩ : ∃ sg : Int, sg = if sh > 0 then 1 else -1 := ⟨_, rfl⟩
      have hsg' : sg = 1 ∨ sg = -1 := by rw [hsg]; split <;> simp
      rw [← hsg]
      obtain ⟨w, hw⟩ : ∃ w : Int, w = if sg < 0 then 1 else 0 := ⟨_, rfl⟩
      have hw' : 0 ≤ w ∧ w ≤ 1 := by rw [hw]; split <;> omega
      rw [← hw]
      rw [show I32.sub st w = some (st - w) from i32_eq (by omega) (by omega), ofOption_some,
        show I32.sub (st - w) sg = some (st - w - sg) from i32_eq (by omega) (by omega), ofOption_some,
        show I32.add (st - w - sg) sh = some (st - w - sg + sh) from i32_eq (by omega) (by omega), ofOption_some,
        clampI_eq z1 (by omega), ofOption_some]
      have hc := clamp1_range (i := if sg > 0 then st - w else st - w - sg + sh) z1
      generalize clamp1 (if sg > 0 then st - w else st - w - sg + sh) sz = ix at hc
      rw [ofOption_some, show I32.add ix |sh| = some (ix + |sh|) from i32_eq (by omega) (by omega), ofOption_some]
      by_cases h2 : ix + |sh| ≤ sz
      · rw [if_pos h2, if_pos h2]
      · rw [if_neg h2, if_neg h2, show I32.sub sz ix = some (sz - ix) from i32_eq (by omega) (by omega), ofOption_some,
          show I32.sub |sh| (sz - ix) = some (|sh| - (sz - ix)) from i32_eq (by omega) (by omega)]
        rfl
  · rw [if_neg h0, if_neg h0]

end

/-! ## Iterators -/

theorem incrementIndexI_eq {i size start : Idx} (hs : start.In size) (hx : size.x ≤ 2 ^ 29) (hy : size.y ≤ 2 ^ 29)
    (hi : i.In size) : incrementIndexI i size start = some (incrementIndex i size start) := by
  obtain ⟨u1, u2, u3, u4⟩ := unwrapIdx_in hi hs
  unfold incrementIndexI incrementIndex
  rw [unwrapI_eq (.of_in hs hx hy hi), Option.bind_some]
  simp only
  generalize unwrapIdx i size start = u at u1 u2 u3 u4
  rw [show I32.add u.y 1 = some (u.y + 1) from i32_eq (by omega) (by omega), Option.bind_some,
    show I32.add u.x 1 = some (u.x + 1) from i32_eq (by omega) (by omega), Option.bind_some, ← apply_ite some,
    Option.bind_some]
  generalize (if u.y + 1 < size.y then (⟨u.x, u.y + 1⟩ : Idx) else ⟨u.x + 1, 0⟩) = v
  by_cases hv : inRange v size = true
  · rw [if_pos hv, if_pos hv, bufferI_eq (.of_in hs hx hy (inRange_iff.mp hv))]; rfl
  · rw [if_neg hv, if_neg hv]

theorem incrementIndex_in {i j size start : Idx} (hs : start.In size) (h : incrementIndex i size start = some j) :
    j.In size := by
  unfold incrementIndex at h
  simp only at h
  generalize (if (unwrapIdx i size start).y + 1 < size.y then
    (⟨(unwrapIdx i size start).x, (unwrapIdx i size start).y + 1⟩ : Idx) else ⟨(unwrapIdx i size start).x + 1, 0⟩) = v at h
  split at h
  · rename_i hv
    cases h
    exact bufferIdx_in (inRange_iff.mp hv) hs
  · cases h

/-- The states of a `CostMapIterator` on a map with at most `2^29` rows and columns. -/
structure CostMapIter.Ok (it : CostMapIter) : Prop where
  start : it.startIndex.In it.size
  x : it.size.x ≤ 2 ^ 29
  y : it.size.y ≤ 2 ^ 29
  index : it.index.In it.size

theorem CostMapIter.nextI_eq {it : CostMapIter} (h : it.Ok) : it.nextI = some it.next ∧ it.next.Ok := by
  obtain ⟨a, b, c, d⟩ := h
  unfold nextI next
  rw [incrementIndexI_eq a b c d, Option.bind_some]
  cases e : incrementIndex it.index it.size it.startIndex with
  | none => exact ⟨rfl, a, b, c, d⟩
  | some j => exact ⟨rfl, a, b, c, incrementIndex_in a e⟩

theorem CostMapIter.visitsI {it : CostMapIter} (h : it.Ok) {xs : List Idx} (hv : Visits ops it xs) : Visits opsI it xs :=
  visits_transfer (I := ops) (J := opsI) Ok rfl rfl
    (fun s hs _ => by
      obtain ⟨a, b⟩ := nextI_eq hs
      refine ⟨by simp only [opsI, ops, a, Res.ofOption], fun s' e => ?_⟩
      simp only [ops, Res.ok.injEq] at e
      exact e ▸ b) hv h

/-- The states of a `SubmapIterator` on a map with at most `2^29` rows and columns. -/
structure SubmapIter.Ok (it : SubmapIter) : Prop where
  start : it.startIndex.In it.size
  x : it.size.x ≤ 2 ^ 29
  y : it.size.y ≤ 2 ^ 29
  first : it.submapStartIndex.In it.size
  sub_x : it.submapSize.x ≤ 2 ^ 29
  sub_y : it.submapSize.y ≤ 2 ^ 29
  index_x : 0 ≤ it.submapIndex.x ∧ it.submapIndex.x ≤ 2 ^ 29
  index_y : 0 ≤ it.submapIndex.y ∧ it.submapIndex.y ≤ 2 ^ 29

theorem SubmapIter.nextI_eq {it : SubmapIter} (h : it.Ok) : it.nextI = some it.next ∧ it.next.Ok := by
  obtain ⟨a, b, c, d, e, f, g, k⟩ := h
  unfold nextI next incrementIndexForSubmapI incrementIndexForSubmap
  rw [show I32.add it.submapIndex.y 1 = some (it.submapIndex.y + 1) from i32_eq (by omega) (by omega), Option.bind_some,
    show I32.add it.submapIndex.x 1 = some (it.submapIndex.x + 1) from i32_eq (by omega) (by omega), Option.bind_some,
    ← apply_ite some, Option.bind_some]
  simp only
  generalize (if it.submapIndex.y + 1 < it.submapSize.y then (⟨it.submapIndex.x, it.submapIndex.y + 1⟩ : Idx)
    else ⟨it.submapIndex.x + 1, 0⟩) = v
  by_cases hv : inRange v it.submapSize = true
  · have hv' := inRange_iff.mp hv
    obtain ⟨v1, v2, v3, v4⟩ := hv'
    have ut := unwrapIdx_in d a
    rw [if_pos hv, if_pos hv, unwrapI_eq (.of_in a b c d), Option.bind_some]
    generalize unwrapIdx it.submapStartIndex it.size it.startIndex = t at ut
    obtain ⟨t1, t2, t3, t4⟩ := ut
    obtain ⟨s1, s2, s3, s4⟩ := a
    rw [both_eq (i32_eq (z := t.x + v.x) (by omega) (by omega)) (i32_eq (z := t.y + v.y) (by omega) (by omega)),
      Option.bind_some, show (⟨t.x + v.x, t.y + v.y⟩ : Idx) = t + v from rfl,
      bufferI_eq ⟨by omega, by omega, by omega, by omega, ?_, ?_⟩]
    · exact ⟨rfl, ⟨s1, s2, s3, s4⟩, b, c, d, e, f, by simp only; omega, by simp only; omega⟩
    · show -2 ^ 30 ≤ t.x + v.x ∧ t.x + v.x ≤ 2 ^ 30
      omega
    · show -2 ^ 30 ≤ t.y + v.y ∧ t.y + v.y ≤ 2 ^ 30
      omega
  · rw [if_neg hv, if_neg hv]
    exact ⟨rfl, a, b, c, d, e, f, g, k⟩

theorem SubmapIter.visitsI {it : SubmapIter} (h : it.Ok) {xs : List Idx} (hv : Visits ops it xs) : Visits opsI it xs :=
  visits_transfer (I := ops) (J := opsI) Ok rfl rfl
    (fun s hs _ => by
      obtain ⟨a, b⟩ := nextI_eq hs
      refine ⟨by simp only [opsI, ops, a, Res.ofOption], fun s' e => ?_⟩
      simp only [ops, Res.ok.injEq] at e
      exact e ▸ b) hv h

/-- The states of a `LineIterator` between indices of at most `2^29`. -/
structure LineIter.Ok (a : Idx) (it : LineIter) : Prop where
  cells : it.nCells ≤ 2 ^ 30 + 1
  den : 0 ≤ it.denominator ∧ it.denominator ≤ 2 ^ 30
  add : 0 ≤ it.numeratorAdd ∧ it.numeratorAdd ≤ it.denominator
  num : 0 ≤ it.numerator ∧ (it.numerator < it.denominator ∨ it.numerator = 0)
  inc : |it.increment1.x| + |it.increment2.x| ≤ 1 ∧ |it.increment1.y| + |it.increment2.y| ≤ 1
  start : |a.x| ≤ 2 ^ 29 ∧ |a.y| ≤ 2 ^ 29
  index : |it.index.x - a.x| ≤ it.iCell ∧ |it.index.y - a.y| ≤ it.iCell

theorem LineIter.nextI_eq {a : Idx} {it : LineIter} (h : it.Ok a) (hp : it.isPastEnd = false) :
    it.nextI = some it.next ∧ it.next.Ok a := by
  obtain ⟨h1, h2, h3, h4, h5, h6, h7⟩ := h
  have hp' : it.iCell < it.nCells := by simpa [isPastEnd] using hp
  have hmod : (it.iCell + 1) % 4294967296 = it.iCell + 1 := Nat.mod_eq_of_lt (by omega)
  have b1 := abs_le.mp h6.1; have b2 := abs_le.mp h6.2
  have b3 := abs_le.mp h7.1; have b4 := abs_le.mp h7.2
  have c1 := abs_nonneg it.increment1.x; have c2 := abs_nonneg it.increment2.x
  have c3 := abs_nonneg it.increment1.y; have c4 := abs_nonneg it.increment2.y
  have d1 := neg_abs_le it.increment1.x; have d2 := le_abs_self it.increment1.x
  have d3 := neg_abs_le it.increment2.x; have d4 := le_abs_self it.increment2.x
  have d5 := neg_abs_le it.increment1.y; have d6 := le_abs_self it.increment1.y
  have d7 := neg_abs_le it.increment2.y; have d8 := le_abs_self it.increment2.y
  unfold nextI next
  rw [show I32.add it.numerator it.numeratorAdd = some (it.numerator + it.numeratorAdd) from
    i32_eq (by omega) (by omega), Option.bind_some, hmod]
  simp only
  by_cases hn : it.numerator + it.numeratorAdd ≥ it.denominator
  · rw [if_pos hn, if_pos hn,
      show I32.sub (it.numerator + it.numeratorAdd) it.denominator = some (it.numerator + it.numeratorAdd - it.denominator)
        from i32_eq (by omega) (by omega), Option.bind_some,
      both_eq (i32_eq (z := it.index.x + it.increment1.x) (by omega) (by omega))
        (i32_eq (z := it.index.y + it.increment1.y) (by omega) (by omega)), Option.bind_some,
      both_eq (i32_eq (z := it.index.x + it.increment1.x + it.increment2.x) (by omega) (by omega))
        (i32_eq (z := it.index.y + it.increment1.y + it.increment2.y) (by omega) (by omega)), Option.bind_some]
    refine ⟨rfl, h1, h2, h3, by simp only; omega, h5, h6, ?_, ?_⟩
    · show |it.index.x + it.increment1.x + it.increment2.x - a.x| ≤ ((it.iCell + 1 : Nat) : Int)
      rw [abs_le]; push_cast; constructor <;> omega
    · show |it.index.y + it.increment1.y + it.increment2.y - a.y| ≤ ((it.iCell + 1 : Nat) : Int)
      rw [abs_le]; push_cast; constructor <;> omega
  · rw [if_neg hn, if_neg hn,
      both_eq (i32_eq (z := it.index.x + it.increment2.x) (by omega) (by omega))
        (i32_eq (z := it.index.y + it.increment2.y) (by omega) (by omega)), Option.bind_some]
    refine ⟨rfl, h1, h2, h3, by simp only; omega, h5, h6, ?_, ?_⟩
    · show |it.index.x + it.increment2.x - a.x| ≤ ((it.iCell + 1 : Nat) : Int)
      rw [abs_le]; push_cast; constructor <;> omega
    · show |it.index.y + it.increment2.y - a.y| ≤ ((it.iCell + 1 : Nat) : Int)
      rw [abs_le]; push_cast; constructor <;> omega

theorem LineIter.visitsI {a : Idx} {it : LineIter} (h : it.Ok a) {xs : List Idx} (hv : Visits ops it xs) :
    Visits opsI it xs :=
  visits_transfer (I := ops) (J := opsI) (Ok a) rfl rfl
    (fun s hs hp => by
      obtain ⟨e, f⟩ := nextI_eq hs hp
      refine ⟨by simp only [opsI, ops, e, Res.ofOption], fun s' e => ?_⟩
      simp only [ops, Res.ok.injEq] at e
      exact e ▸ f) hv h

theorem LineIter.ofIndicesI_eq {a b : Idx} (ha : a.Small) (hb : b.Small) :
    ofIndicesI a b = some (ofIndices a b) ∧ (ofIndices a b).Ok a := by
  have a1 := abs_le.mp ha.x; have a2 := abs_le.mp ha.y
  have b1 := abs_le.mp hb.x; have b2 := abs_le.mp hb.y
  have d1 : |b.x - a.x| ≤ 2 ^ 30 := abs_le.mpr ⟨by omega, by omega⟩
  have d2 : |b.y - a.y| ≤ 2 ^ 30 := abs_le.mpr ⟨by omega, by omega⟩
  have e1 := abs_nonneg (b.x - a.x); have e2 := abs_nonneg (b.y - a.y)
  unfold ofIndicesI ofIndices
  rw [both_eq (i32_eq (z := b.x - a.x) (by omega) (by omega)) (i32_eq (z := b.y - a.y) (by omega) (by omega)),
    Option.bind_some, show I32.abs (b.x - a.x) = some |b.x - a.x| from i32_eq (by omega) (by omega), Option.bind_some,
    show I32.abs (b.y - a.y) = some |b.y - a.y| from i32_eq (by omega) (by omega), Option.bind_some]
  simp only
  generalize |b.x - a.x| = dx at d1 e1
  generalize |b.y - a.y| = dy at d2 e2
  have half : ∀ z : Int, 0 ≤ z → z ≤ 2 ^ 30 → I32.div z 2 = some (z / 2) := by
    intro z h0 h1
    unfold I32.div
    rw [if_neg (by omega), Int.tdiv_eq_ediv_of_nonneg h0]
    exact i32_eq (by omega) (by omega)
  have hsx : |(if b.x ≥ a.x then (1 : Int) else -1)| = 1 := by split <;> rfl
  have hsy : |(if b.y ≥ a.y then (1 : Int) else -1)| = 1 := by split <;> rfl
  by_cases h : dx ≥ dy
  · rw [if_pos h, if_pos h, half dx e1 d1, Option.bind_some,
      show I32.add dx 1 = some (dx + 1) from i32_eq (by omega) (by omega), Option.bind_some]
    refine ⟨rfl, ?_, ⟨e1, d1⟩, ⟨e2, h⟩, ?_, ?_, ⟨ha.x, ha.y⟩, ?_⟩
    · simp only; omega
    · simp only; omega
    · simp only [hsx, hsy]; simp
    · simp
  · rw [if_neg h, if_neg h, half dy e2 d2, Option.bind_some,
      show I32.add dy 1 = some (dy + 1) from i32_eq (by omega) (by omega), Option.bind_some]
    refine ⟨rfl, ?_, ⟨e2, d2⟩, ⟨e1, by simp only; omega⟩, ?_, ?_, ⟨ha.x, ha.y⟩, ?_⟩
    · simp only; omega
    · simp only; omega
    · simp only [hsx, hsy]; simp
    · simp

end CostMapModel

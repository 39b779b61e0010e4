import Verif.Model.Line
import Verif.Lemmas.Iteration
import Verif.Lemmas.Geometry

/-! # Helper lemmas for the line iterator -/

set_option linter.unusedSectionVars false

namespace CostMapModel
namespace LineIter

/-- The state after `k` increments. -/
def after (it : LineIter) (k : Nat) : LineIter := next^[k] it

theorem after_zero (it : LineIter) : it.after 0 = it := rfl

theorem after_succ (it : LineIter) (k : Nat) : it.after (k + 1) = (it.after k).next :=
  Function.iterate_succ_apply' _ _ _

theorem visits_after (it : LineIter) (n : Nat) (h0 : it.iCell = 0) (hn : it.nCells = n) :
    Visits ops it ((List.range n).map fun k => (it.after k).index) := by
  have hk : ∀ k, (it.after k).iCell = k ∧ (it.after k).nCells = n := by
    intro k
    induction k with
    | zero => exact ⟨h0, hn⟩
    | succ k ih =>
      rw [after_succ]
      unfold next
      simp only
      split <;> simp [ih.1, ih.2]
  have := visits_chain ops n it.after (fun k => (it.after k).index) (by
      intro k hk'
      simp only [ops, isPastEnd, (hk k).1, (hk k).2, decide_eq_false_iff_not]; omega)
    (fun k _ => rfl) (fun k _ => by rw [after_succ]; rfl) (by
      simp [ops, isPastEnd, (hk n).1, (hk n).2])
  exact this

/-- The minor coordinate after `k` steps of a line with major length `d` and minor length `a`. -/
def minor (d a : Int) (k : Nat) : Int := (d / 2 + k * a) / d

theorem minor_succ {d a : Int} (hd : 0 < d) (ha : 0 ≤ a) (had : a ≤ d) (k : Nat) :
    ((d / 2 + k * a) % d + a ≥ d → minor d a (k + 1) = minor d a k + 1 ∧
      (d / 2 + (k + 1 : Nat) * a) % d = (d / 2 + k * a) % d + a - d) ∧
    (¬ (d / 2 + k * a) % d + a ≥ d → minor d a (k + 1) = minor d a k ∧
      (d / 2 + (k + 1 : Nat) * a) % d = (d / 2 + k * a) % d + a) := by
  unfold minor
  set N := d / 2 + k * a with hN
  have e : d / 2 + ((k + 1 : Nat) : Int) * a = N + a := by rw [hN]; push_cast; ring
  rw [e]
  have h1 := Int.ediv_mul_add_emod N d
  have h2 := Int.emod_nonneg N (ne_of_gt hd)
  have h3 := Int.emod_lt_of_pos N hd
  constructor
  · intro h
    have := (Int.ediv_emod_unique (a := N + a) (r := N % d + a - d) (q := N / d + 1) hd).mpr
      ⟨by linarith, by linarith, by linarith⟩
    exact this
  · intro h
    push Not at h
    have := (Int.ediv_emod_unique (a := N + a) (r := N % d + a) (q := N / d) hd).mpr
      ⟨by linarith, by linarith, by linarith⟩
    exact this

theorem after_eq {it : LineIter} (hd : 0 < it.denominator) (hnum : it.numerator = it.denominator / 2)
    (ha : 0 ≤ it.numeratorAdd) (had : it.numeratorAdd ≤ it.denominator) (k : Nat) :
    (it.after k).index = ⟨it.index.x + minor it.denominator it.numeratorAdd k * it.increment1.x + k * it.increment2.x,
      it.index.y + minor it.denominator it.numeratorAdd k * it.increment1.y + k * it.increment2.y⟩ := by
  have key : (it.after k).denominator = it.denominator ∧ (it.after k).numeratorAdd = it.numeratorAdd ∧
      (it.after k).increment1 = it.increment1 ∧ (it.after k).increment2 = it.increment2 ∧
      (it.after k).numerator = (it.denominator / 2 + k * it.numeratorAdd) % it.denominator ∧
      (it.after k).index =
        ⟨it.index.x + minor it.denominator it.numeratorAdd k * it.increment1.x + k * it.increment2.x,
          it.index.y + minor it.denominator it.numeratorAdd k * it.increment1.y + k * it.increment2.y⟩ := by
    induction k with
    | zero =>
      have h0 : it.denominator / 2 % it.denominator = it.denominator / 2 :=
        Int.emod_eq_of_lt (by omega) (by omega)
      have h1 : minor it.denominator it.numeratorAdd 0 = 0 := by
        simp only [minor, Nat.cast_zero, zero_mul, add_zero]
        exact Int.ediv_eq_zero_of_lt (by omega) (by omega)
      refine ⟨rfl, rfl, rfl, rfl, ?_, ?_⟩
      · simp [after_zero, hnum, h0]
      · rw [h1, after_zero]; ext <;> simp
    | succ k ih =>
      obtain ⟨i1, i2, i3, i4, i5, i6⟩ := ih
      have hm := minor_succ hd ha had k
      rw [after_succ]
      unfold next
      simp only [i1, i2, i3, i4, i5, i6]
      split
      · rename_i hc
        obtain ⟨m1, m2⟩ := hm.1 hc
        refine ⟨rfl, rfl, rfl, rfl, m2.symm, ?_⟩
        rw [m1]; ext <;> simp <;> ring
      · rename_i hc
        obtain ⟨m1, m2⟩ := hm.2 hc
        refine ⟨rfl, rfl, rfl, rfl, m2.symm, ?_⟩
        rw [m1]; ext <;> simp <;> ring
  exact key.2.2.2.2.2

theorem minor_zero {d a : Int} (hd : 0 < d) : minor d a 0 = 0 := by
  simp only [minor, Nat.cast_zero, zero_mul, add_zero]
  exact Int.ediv_eq_zero_of_lt (by omega) (by omega)

theorem minor_last {d a : Int} (hd : 0 < d) : minor d a d.toNat = a := by
  unfold minor
  have : (d.toNat : Int) = d := Int.toNat_of_nonneg hd.le
  rw [this, Int.add_mul_ediv_left _ _ (ne_of_gt hd), Int.ediv_eq_zero_of_lt (by omega) (by omega), zero_add]

theorem minor_near {d a : Int} (hd : 0 < d) (k : Nat) :
    2 * |minor d a k * d - k * a| ≤ d := by
  unfold minor
  have h1 := Int.ediv_mul_add_emod (d / 2 + k * a) d
  have h2 := Int.emod_nonneg (d / 2 + k * a) (ne_of_gt hd)
  have h3 := Int.emod_lt_of_pos (d / 2 + k * a) hd
  set q := (d / 2 + k * a) / d * d
  set r := (d / 2 + k * a) % d
  set t := (k : Int) * a
  rcases abs_cases (q - t) with ⟨h, _⟩ | ⟨h, _⟩ <;> rw [h] <;> omega

theorem minor_mono {d a : Int} (hd : 0 < d) (ha : 0 ≤ a) {j k : Nat} (h : j ≤ k) :
    minor d a j ≤ minor d a k := by
  unfold minor
  apply Int.ediv_le_ediv hd
  have : (j : Int) * a ≤ k * a := mul_le_mul_of_nonneg_right (by exact_mod_cast h) ha
  linarith

end LineIter
end CostMapModel

namespace CostMapModel
namespace LineIter
variable {K : Type} [Field K] [LinearOrder K] [IsStrictOrderedRing K] [FloorRing K]
open CostMap

/-- `norm` behaves like a norm on the line spanned by `d`. -/
structure NormOn (norm : Vec K → K) (d : Vec K) : Prop where
  scale : ∀ t, norm ⟨t * d.x, t * d.y⟩ = |t| * norm d
  nonneg : 0 ≤ norm d
  zero : norm d = 0 → d = ⟨0, 0⟩

theorem NormOn.neg {norm : Vec K → K} {d : Vec K} (h : NormOn norm d) :
    NormOn norm ⟨-d.x, -d.y⟩ ∧ norm ⟨-d.x, -d.y⟩ = norm d := by
  have e : norm ⟨-d.x, -d.y⟩ = norm d := by
    have := h.scale (-1)
    simpa using this
  refine ⟨⟨?_, by rw [e]; exact h.nonneg, ?_⟩, e⟩
  · intro t
    have := h.scale (-t)
    rw [e, ← abs_neg t, ← this]
    congr 2 <;> ring
  · intro h0
    rw [e] at h0
    rw [h.zero h0]; simp

/-- The point at distance `s` from `a` on the way to `b`, where `L` is the length of the way. -/
def along (a b : Vec K) (L s : K) : Vec K := ⟨a.x + s / L * (b.x - a.x), a.y + s / L * (b.y - a.y)⟩

theorem norm_rest {norm : Vec K → K} {a b : Vec K} (hn : NormOn norm ⟨b.x - a.x, b.y - a.y⟩) (s : K) :
    let L := norm ⟨b.x - a.x, b.y - a.y⟩
    norm ⟨b.x - (along a b L s).x, b.y - (along a b L s).y⟩ = if L = 0 then 0 else |L - s| := by
  intro L
  have e : (⟨b.x - (along a b L s).x, b.y - (along a b L s).y⟩ : Vec K) =
      ⟨(1 - s / L) * (b.x - a.x), (1 - s / L) * (b.y - a.y)⟩ := by
    simp only [along]; congr 1 <;> ring
  rw [e]
  have := hn.scale (1 - s / L)
  simp only at this
  rw [this]
  change |1 - s / L| * L = _
  split
  · rename_i h0; rw [h0, mul_zero]
  · rename_i h0
    have hL : 0 ≤ L := hn.nonneg
    have : |1 - s / L| * |L| = |L - s| := by
      rw [← abs_mul]; congr 1; field_simp
    rwa [abs_of_nonneg hL] at this

theorem step_along {norm : Vec K → K} {a b : Vec K} (hn : NormOn norm ⟨b.x - a.x, b.y - a.y⟩) (s h : K) :
    let L := norm ⟨b.x - a.x, b.y - a.y⟩
    let dir := normalized norm ⟨b.x - a.x, b.y - a.y⟩
    (⟨(along a b L s).x + h * dir.x, (along a b L s).y + h * dir.y⟩ : Vec K) = along a b L (s + h) := by
  intro L dir
  have hd : dir = ⟨(b.x - a.x) / L, (b.y - a.y) / L⟩ := by
    simp only [dir, normalized]
    split
    · rename_i h0
      have := hn.zero h0
      have e1 := congrArg Vec.x this
      have e2 := congrArg Vec.y this
      simp only at e1 e2
      rw [e1, e2]; simp
    · rfl
  rw [hd]
  simp only [along]
  ext
  · simp only; ring
  · simp only; ring

/-- What the search loop finds, from step `k` on. -/
theorem searchFrom_spec {norm : Vec K → K} {m : CostMap K} {a b : Vec K}
    (hn : NormOn norm ⟨b.x - a.x, b.y - a.y⟩) (hh : 0 < m.resolution - dblEpsilon) (fuel k : Nat)
    (hk : 1 ≤ k → norm ⟨b.x - a.x, b.y - a.y⟩ ≠ 0 ∧
      (k : K) * (m.resolution - dblEpsilon) ≤ norm ⟨b.x - a.x, b.y - a.y⟩ - (m.resolution - dblEpsilon))
    (hf : norm ⟨b.x - a.x, b.y - a.y⟩ / (m.resolution - dblEpsilon) + 2 ≤ ((fuel + k : Nat) : K)) :
    let L := norm ⟨b.x - a.x, b.y - a.y⟩
    let h := m.resolution - dblEpsilon
    let r := searchFrom norm m b (normalized norm ⟨b.x - a.x, b.y - a.y⟩) fuel (along a b L (k * h))
    (∃ n, k ≤ n ∧ (m.getIndex (along a b L (n * h))).2 = true ∧
        r = .ok (some (m.getIndex (along a b L (n * h))).1) ∧
        (∀ j, k ≤ j → j < n → (m.getIndex (along a b L (j * h))).2 = false) ∧
        (1 ≤ n → L ≠ 0 ∧ n * h ≤ L - h)) ∨
    (∃ n, k ≤ n ∧ r = .ok none ∧ (∀ j, k ≤ j → j ≤ n → (m.getIndex (along a b L (j * h))).2 = false) ∧
        (L = 0 ∨ L - h < (n + 1 : Nat) * h)) := by
  intro L h r
  induction fuel generalizing k with
  | zero =>
    exfalso
    have hL : 0 ≤ L := hn.nonneg
    rw [Nat.zero_add] at hf
    change L / h + 2 ≤ (k : K) at hf
    have h2 : 0 ≤ L / h := div_nonneg hL hh.le
    have hk1 : 1 ≤ k := by
      have : (1 : K) ≤ k := by linarith
      exact_mod_cast this
    have h3 := (hk hk1).2
    change (k : K) * h ≤ L - h at h3
    have h4 : (L / h + 2) * h ≤ k * h := mul_le_mul_of_nonneg_right hf hh.le
    have h5 : (L / h + 2) * h = L + 2 * h := by rw [add_mul, div_mul_cancel₀ _ hh.ne']
    have : 0 < h := hh
    linarith
  | succ fuel ih =>
    simp only [r, searchFrom]
    by_cases hin : (m.getIndex (along a b L (k * h))).2 = true
    · left
      refine ⟨k, le_refl _, hin, by rw [if_pos hin], fun j h1 h2 => absurd h2 (by omega), hk⟩
    · have hin' : (m.getIndex (along a b L (k * h))).2 = false := by simpa using hin
      rw [if_neg hin]
      have hst := step_along hn ((k : K) * h) h
      simp only at hst
      have hst' : (⟨(along a b L (k * h)).x + h * (normalized norm ⟨b.x - a.x, b.y - a.y⟩).x,
        (along a b L (k * h)).y + h * (normalized norm ⟨b.x - a.x, b.y - a.y⟩).y⟩ : Vec K) =
          along a b L ((k + 1 : Nat) * h) := by
        refine hst.trans ?_
        congr 1; push_cast; ring
      have hx := congrArg Vec.x hst'
      have hy := congrArg Vec.y hst'
      simp only at hx hy
      have hstep : ∀ α (f : Vec K → α), f ⟨(along a b L (k * h)).x +
          (m.resolution - dblEpsilon) * (normalized norm ⟨b.x - a.x, b.y - a.y⟩).x,
          (along a b L (k * h)).y +
          (m.resolution - dblEpsilon) * (normalized norm ⟨b.x - a.x, b.y - a.y⟩).y⟩ =
            f (along a b L ((k + 1 : Nat) * h)) := by
        intro α f; exact congrArg f hst'
      have hrest := norm_rest hn (((k + 1 : Nat) : K) * h)
      simp only at hrest
      rw [hstep _ (fun p => if norm ⟨b.x - p.x, b.y - p.y⟩ < m.resolution - dblEpsilon then Res.ok none
        else searchFrom norm m b (normalized norm ⟨b.x - a.x, b.y - a.y⟩) fuel p)]
      have hrest' : norm ⟨b.x - (along a b L ((k + 1 : Nat) * h)).x, b.y - (along a b L ((k + 1 : Nat) * h)).y⟩ =
          if L = 0 then 0 else |L - (k + 1 : Nat) * h| := hrest
      rw [hrest']
      by_cases hc : (if L = 0 then 0 else |L - (k + 1 : Nat) * h|) < m.resolution - dblEpsilon
      · right
        rw [if_pos hc]
        refine ⟨k, le_refl _, rfl, ?_, ?_⟩
        · intro j h1 h2
          have : j = k := by omega
          rw [this]; exact hin'
        · by_cases hL0 : L = 0
          · exact Or.inl hL0
          · right
            rw [if_neg hL0] at hc
            have := (abs_lt.mp hc).2
            change _ < h at this
            linarith
      · rw [if_neg hc]
        have hL0 : L ≠ 0 := by
          intro h0; rw [if_pos h0] at hc; exact hc hh
        rw [if_neg hL0, not_lt] at hc
        have hk1 : (((k + 1 : Nat) : K)) * h ≤ L - h := by
          rcases le_abs.mp hc with h1 | h1
          · change h ≤ _ at h1; linarith
          · exfalso
            change h ≤ _ at h1
            rcases Nat.eq_zero_or_pos k with h0 | h0
            · subst h0
              have hL : 0 ≤ L := hn.nonneg
              push_cast at h1
              have : L = 0 := by linarith
              exact hL0 this
            · have h2 := (hk h0).2
              change (k : K) * h ≤ L - h at h2
              push_cast at h1
              have : 0 < h := hh
              linarith
        have hfk : fuel + 1 + k = fuel + (k + 1) := by omega
        rw [hfk] at hf
        rcases ih (k + 1) (fun _ => ⟨hL0, hk1⟩) hf with ⟨n, g1, g2, g3, g4, g5⟩ | ⟨n, g1, g2, g3, g4⟩
        · left
          refine ⟨n, by omega, g2, g3, ?_, g5⟩
          intro j h1 h2
          rcases Nat.eq_or_lt_of_le h1 with h3 | h3
          · rw [← h3]; exact hin'
          · exact g4 j h3 h2
        · right
          refine ⟨n, by omega, g2, ?_, g4⟩
          intro j h1 h2
          rcases Nat.eq_or_lt_of_le h1 with h3 | h3
          · rw [← h3]; exact hin'
          · exact g3 j h3 h2

theorem indexLimited_spec {norm : Vec K → K} {m : CostMap K} {a b : Vec K}
    (hn : NormOn norm ⟨b.x - a.x, b.y - a.y⟩) (hh : 0 < m.resolution - dblEpsilon) :
    let L := norm ⟨b.x - a.x, b.y - a.y⟩
    let h := m.resolution - dblEpsilon
    (∃ n : Nat, (m.getIndex (along a b L (n * h))).2 = true ∧
        indexLimited norm m a b = .ok (some (m.getIndex (along a b L (n * h))).1) ∧
        (∀ j : Nat, j < n → (m.getIndex (along a b L (j * h))).2 = false) ∧
        (1 ≤ n → L ≠ 0 ∧ n * h ≤ L - h)) ∨
    (∃ n : Nat, indexLimited norm m a b = .ok none ∧
        (∀ j : Nat, j ≤ n → (m.getIndex (along a b L (j * h))).2 = false) ∧
        (L = 0 ∨ L - h < (n + 1 : Nat) * h)) := by
  intro L h
  have h0 : along a b L (((0 : Nat) : K) * h) = a := by
    simp [along]
  have := searchFrom_spec (m := m) hn hh (searchFuel norm m a b) 0 (by omega) (by
    unfold searchFuel
    have := Int.le_ceil (norm ⟨b.x - a.x, b.y - a.y⟩ / (m.resolution - dblEpsilon))
    have h2 : (⌈norm ⟨b.x - a.x, b.y - a.y⟩ / (m.resolution - dblEpsilon)⌉ : K) ≤
        ((⌈norm ⟨b.x - a.x, b.y - a.y⟩ / (m.resolution - dblEpsilon)⌉.toNat : Nat) : K) := by
      have := Int.self_le_toNat ⌈norm ⟨b.x - a.x, b.y - a.y⟩ / (m.resolution - dblEpsilon)⌉
      exact_mod_cast this
    push_cast
    linarith)
  simp only at this
  have h0' : along a b (norm ⟨b.x - a.x, b.y - a.y⟩) (((0 : Nat) : K) * (m.resolution - dblEpsilon)) = a := h0
  rw [h0'] at this
  rcases this with ⟨n, g1, g2, g3, g4, g5⟩ | ⟨n, g1, g2, g3, g4⟩
  · exact Or.inl ⟨n, g2, g3, fun j hj => g4 j (by omega) hj, g5⟩
  · exact Or.inr ⟨n, g2, fun j hj => g3 j (by omega) hj, g4⟩

end LineIter
end CostMapModel

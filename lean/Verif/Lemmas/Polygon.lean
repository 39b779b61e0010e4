import Verif.Lemmas.Box

/-! # The crossing test stays inside the bounding box of the vertices -/

set_option linter.unusedSectionVars false

namespace CostMapModel
variable {K : Type} [Field K] [LinearOrder K] [IsStrictOrderedRing K] [FloorRing K]

/-- Number of places where a boolean sequence starting at `a` changes. -/
def changes : Bool → List Bool → Nat
  | _, [] => 0
  | a, b :: bs => (if a != b then 1 else 0) + changes b bs

theorem changes_parity (a : Bool) (bs : List Bool) :
    changes a bs % 2 = if a != (a :: bs).getLast (by simp) then 1 else 0 := by
  induction bs generalizing a with
  | nil => simp [changes]
  | cons b bs ih =>
    have := ih b
    rw [List.getLast_cons (by simp)]
    simp only [changes]
    generalize (b :: bs).getLast (by simp) = c at *
    cases a <;> cases b <;> cases c <;> simp at * <;> omega

theorem filter_zip_changes (f : Vec K → Bool) (a : Vec K) (vs : List (Vec K)) :
    ((List.zip (a :: vs) vs).filter fun e => f e.2 != f e.1).length = changes (f a) (vs.map f) := by
  induction vs generalizing a with
  | nil => simp [changes]
  | cons v vs ih =>
    rw [List.zip_cons_cons, List.map_cons, changes, ← ih v]
    by_cases h : f a = f v
    · rw [List.filter_cons_of_neg (by simp [h])]; simp [h]
    · have : (f v != f a) = true := by simp; exact fun e => h e.symm
      rw [List.filter_cons_of_pos (p := fun e : Vec K × Vec K => f e.2 != f e.1) this]
      have : (f a != f v) = true := by simpa using h
      simp [this]; omega

/-- Around a closed polygon an even number of edges straddle any height. -/
theorem straddle_even (f : Vec K → Bool) (vs : List (Vec K)) (l : Vec K) (hl : vs.getLast? = some l) :
    ((List.zip (l :: vs) vs).filter fun e => f e.2 != f e.1).length % 2 = 0 := by
  rw [filter_zip_changes, changes_parity]
  have hne : vs ≠ [] := by rintro rfl; cases hl
  have : (f l :: vs.map f).getLast (by simp) = f l := by
    rw [List.getLast_cons (by simpa using hne), List.getLast_map]
    rw [List.getLast?_eq_some_getLast hne] at hl
    cases hl; rfl
  rw [this]; simp

theorem crosses_bounds {p vi vj lo hi : Vec K} (hi1 : lo.x ≤ vi.x ∧ vi.x ≤ hi.x)
    (hi2 : lo.y ≤ vi.y ∧ vi.y ≤ hi.y) (hj1 : lo.x ≤ vj.x ∧ vj.x ≤ hi.x) (hj2 : lo.y ≤ vj.y ∧ vj.y ≤ hi.y)
    (hs : (decide (p.y < vi.y) != decide (p.y < vj.y)) = true) :
    lo.y ≤ p.y ∧ p.y ≤ hi.y ∧
      lo.x ≤ (vj.x - vi.x) * (p.y - vi.y) / (vj.y - vi.y) + vi.x ∧
      (vj.x - vi.x) * (p.y - vi.y) / (vj.y - vi.y) + vi.x ≤ hi.x := by
  have key : ∃ t : K, 0 ≤ t ∧ t ≤ 1 ∧ (vj.x - vi.x) * (p.y - vi.y) / (vj.y - vi.y) = (vj.x - vi.x) * t ∧
      lo.y ≤ p.y ∧ p.y ≤ hi.y := by
    refine ⟨(p.y - vi.y) / (vj.y - vi.y), ?_, ?_, by rw [mul_div_assoc], ?_⟩
    all_goals
      rcases lt_or_ge p.y vi.y with h1 | h1
    all_goals
      rcases lt_or_ge p.y vj.y with h2 | h2
    all_goals
      first
      | (exfalso; simp [h1, h2, not_lt.mpr] at hs; done)
      | skip
    · exact div_nonneg_of_nonpos (by linarith) (by linarith)
    · exact div_nonneg (by linarith) (by linarith)
    · rw [div_le_one_of_neg (by linarith)]; linarith
    · rw [div_le_one (by linarith)]; linarith
    · exact ⟨by linarith, by linarith⟩
    · exact ⟨by linarith, by linarith⟩
  obtain ⟨t, t0, t1, he, h1, h2⟩ := key
  refine ⟨h1, h2, ?_, ?_⟩
  · rw [he]; nlinarith
  · rw [he]; nlinarith

theorem mem_of_mem_zip_cons {a : Vec K} {vs : List (Vec K)} (ha : a ∈ vs) {e : Vec K × Vec K}
    (he : e ∈ List.zip (a :: vs) vs) : e.1 ∈ vs ∧ e.2 ∈ vs := by
  obtain ⟨x, y⟩ := e
  have := List.of_mem_zip he
  refine ⟨?_, this.2⟩
  rcases List.mem_cons.mp this.1 with rfl | h
  · exact ha
  · exact h

/-- A point the crossing test accepts lies in every box that contains all vertices. -/
theorem polygonInside_in_box {vs : List (Vec K)} {lo hi : Vec K}
    (hv : ∀ v ∈ vs, (lo.x ≤ v.x ∧ v.x ≤ hi.x) ∧ (lo.y ≤ v.y ∧ v.y ≤ hi.y)) {p : Vec K}
    (hp : polygonInside vs p = true) : (lo.x ≤ p.x ∧ p.x ≤ hi.x) ∧ (lo.y ≤ p.y ∧ p.y ≤ hi.y) := by
  unfold polygonInside at hp
  split at hp
  · cases hp
  · rename_i l hl
    have hlm : l ∈ vs := List.mem_of_getLast? hl
    simp only [decide_eq_true_eq] at hp
    have hbd : ∀ e ∈ List.zip (l :: vs) vs, (decide (p.y < e.2.y) != decide (p.y < e.1.y)) = true →
        lo.y ≤ p.y ∧ p.y ≤ hi.y ∧
        lo.x ≤ (e.1.x - e.2.x) * (p.y - e.2.y) / (e.1.y - e.2.y) + e.2.x ∧
        (e.1.x - e.2.x) * (p.y - e.2.y) / (e.1.y - e.2.y) + e.2.x ≤ hi.x := by
      intro e he hs
      obtain ⟨h1, h2⟩ := mem_of_mem_zip_cons hlm he
      exact crosses_bounds (hv _ h2).1 (hv _ h2).2 (hv _ h1).1 (hv _ h1).2 hs
    have hne : ((List.zip (l :: vs) vs).filter fun e => crosses p e.2 e.1) ≠ [] := by
      intro h; rw [h] at hp; simp at hp
    obtain ⟨e, he⟩ := List.exists_mem_of_ne_nil _ hne
    rw [List.mem_filter] at he
    obtain ⟨he, hc⟩ := he
    simp only [crosses, Bool.and_eq_true, decide_eq_true_eq] at hc
    obtain ⟨b1, b2, b3, b4⟩ := hbd e he hc.1
    refine ⟨⟨?_, by linarith [hc.2]⟩, b1, b2⟩
    by_contra hlt
    push Not at hlt
    have hall : ∀ e ∈ List.zip (l :: vs) vs, crosses p e.2 e.1 =
        ((fun v : Vec K => decide (p.y < v.y)) e.2 != (fun v : Vec K => decide (p.y < v.y)) e.1) := by
      intro e he
      simp only [crosses]
      by_cases hs : (decide (p.y < e.2.y) != decide (p.y < e.1.y)) = true
      · have := (hbd e he hs).2.2.1
        rw [hs]
        simp only [Bool.true_and, decide_eq_true_eq]
        linarith
      · have hs' : (decide (p.y < e.2.y) != decide (p.y < e.1.y)) = false := by simpa using hs
        rw [hs']; rfl
    rw [List.filter_congr hall] at hp
    have := straddle_even (fun v : Vec K => decide (p.y < v.y)) vs l hl
    rw [hp] at this
    cases this

theorem foldl_max_ge (vs : List (Vec K)) (a : Vec K) :
    let t := vs.foldl (fun a b => (⟨max a.x b.x, max a.y b.y⟩ : Vec K)) a
    (a.x ≤ t.x ∧ a.y ≤ t.y) ∧ ∀ v ∈ vs, v.x ≤ t.x ∧ v.y ≤ t.y := by
  induction vs generalizing a with
  | nil => simp
  | cons v vs ih =>
    simp only [List.foldl_cons]
    obtain ⟨h1, h2⟩ := ih ⟨max a.x v.x, max a.y v.y⟩
    simp only [max_le_iff] at h1
    refine ⟨⟨h1.1.1, h1.2.1⟩, ?_⟩
    intro w hw
    rcases List.mem_cons.mp hw with rfl | hw
    · exact ⟨h1.1.2, h1.2.2⟩
    · exact h2 w hw

theorem foldl_min_le (vs : List (Vec K)) (a : Vec K) :
    let t := vs.foldl (fun a b => (⟨min a.x b.x, min a.y b.y⟩ : Vec K)) a
    (t.x ≤ a.x ∧ t.y ≤ a.y) ∧ ∀ v ∈ vs, t.x ≤ v.x ∧ t.y ≤ v.y := by
  induction vs generalizing a with
  | nil => simp
  | cons v vs ih =>
    simp only [List.foldl_cons]
    obtain ⟨h1, h2⟩ := ih ⟨min a.x v.x, min a.y v.y⟩
    simp only [le_min_iff] at h1
    refine ⟨⟨h1.1.1, h1.2.1⟩, ?_⟩
    intro w hw
    rcases List.mem_cons.mp hw with rfl | hw
    · exact ⟨h1.1.2, h1.2.2⟩
    · exact h2 w hw

end CostMapModel

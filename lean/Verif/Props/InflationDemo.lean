import Verif.Lemmas.InflationUse
import Verif.Props.Demo
import Mathlib.Analysis.Real.Sqrt
import Mathlib.Tactic.Positivity

/-! # Concrete queues, distances and maps for inflation -/

namespace CostMapModel
namespace Demo
open Inflation

/-- The first smallest element and the others. -/
def firstMin (x : InflateCell ℚ) : List (InflateCell ℚ) → InflateCell ℚ × List (InflateCell ℚ)
  | [] => (x, [])
  | y :: ys => if x.dist ≤ (firstMin y ys).1.dist then (x, y :: ys) else ((firstMin y ys).1, x :: (firstMin y ys).2)

/-- A priority queue. -/
def pop : Pop ℚ := fun _ q => match q with
  | [] => none
  | x :: xs => some (firstMin x xs)

theorem firstMin_spec : ∀ (x : InflateCell ℚ) (xs : List (InflateCell ℚ)),
    List.Perm ((firstMin x xs).1 :: (firstMin x xs).2) (x :: xs) ∧
      ∀ y ∈ (firstMin x xs).2, (firstMin x xs).1.dist ≤ y.dist
  | x, [] => by simp [firstMin]
  | x, y :: ys => by
    obtain ⟨h1, h2⟩ := firstMin_spec y ys
    unfold firstMin
    split
    · rename_i h
      refine ⟨.refl _, fun z hz => ?_⟩
      rcases List.mem_cons.mp (h1.mem_iff.mpr hz) with rfl | hz
      · exact h
      · exact h.trans (h2 z hz)
    · rename_i h
      refine ⟨(List.Perm.swap _ _ _).trans (h1.cons x), fun z hz => ?_⟩
      rcases List.mem_cons.mp hz with rfl | hz
      · exact (not_le.mp h).le
      · exact h2 z hz

theorem pop_ok : PopOk pop := by
  intro t q hq
  cases q with
  | nil => exact absurd rfl hq
  | cons x xs =>
    obtain ⟨h1, h2⟩ := firstMin_spec x xs
    exact ⟨_, _, rfl, h1, h2⟩

/-- A rational stand-in for `hypot`: exact for whole results, between the neighbouring whole numbers otherwise. -/
def hyp (i j : Nat) : ℚ :=
  Nat.sqrt (i * i + j * j) + ((i * i + j * j - Nat.sqrt (i * i + j * j) * Nat.sqrt (i * i + j * j) : Nat) : ℚ) /
    (2 * Nat.sqrt (i * i + j * j) + 1)

theorem hyp_ok (n : Nat) : HypOk hyp n := by
  intro i j k _ _ _
  unfold hyp
  generalize i * i + j * j = N
  have h1 := Nat.sqrt_le N
  have h2 := Nat.sqrt_le_add N
  generalize Nat.sqrt N = s at *
  obtain ⟨r, rfl⟩ := Nat.exists_eq_add_of_le h1
  have hr : r ≤ 2 * s := by omega
  rw [Nat.add_sub_cancel_left]
  have hpos : (0 : ℚ) < 2 * (s : ℚ) + 1 := by positivity
  have hlt : (r : ℚ) / (2 * s + 1) < 1 := by
    rw [div_lt_one hpos]
    have : (r : ℚ) ≤ 2 * s := by exact_mod_cast hr
    linarith
  have hge : (0 : ℚ) ≤ (r : ℚ) / (2 * s + 1) := by positivity
  rcases Nat.lt_or_ge s k with h | h
  · have hk : (s : ℚ) + 1 ≤ k := by exact_mod_cast h
    refine ⟨fun _ => ?_, fun _ => by linarith⟩
    nlinarith
  · constructor
    · intro hle
      have hk : (k : ℚ) ≤ s := by exact_mod_cast h
      have h0 : (r : ℚ) / (2 * s + 1) = 0 := by linarith
      have hks : (s : ℚ) ≤ k := by linarith
      have hks' : s = k := le_antisymm (by exact_mod_cast hks) h
      rcases div_eq_zero_iff.mp h0 with h0 | h0
      · have : r = 0 := by exact_mod_cast h0
        subst hks'; omega
      · linarith
    · intro hle
      have : s = k ∧ r = 0 := by
        have : k * k ≤ s * s := Nat.mul_le_mul h h
        have hkk : k = s := by
          by_contra hne
          have : k + 1 ≤ s := by omega
          nlinarith
        subst hkk
        exact ⟨rfl, by omega⟩
      obtain ⟨rfl, rfl⟩ := this
      simp

/-- The exact distance over the reals meets the assumption on `hypot`. -/
theorem real_hyp_ok (n : Nat) : HypOk (fun i j => Real.sqrt ((i : ℝ) * i + j * j)) n := by
  intro i j k _ _ _
  rw [Real.sqrt_le_left (by positivity)]
  constructor
  · intro h
    have : ((i * i + j * j : Nat) : ℝ) ≤ ((k * k : Nat) : ℝ) := by push_cast; nlinarith
    exact_mod_cast this
  · intro h
    have : ((i * i + j * j : Nat) : ℝ) ≤ ((k * k : Nat) : ℝ) := by exact_mod_cast h
    push_cast at this; nlinarith

/-- A map with cells of size 1 and one layer `s`. -/
def grid (rows cols : Nat) (f : Int → Int → Cost) : CostMap ℚ :=
  (CostMap.add "s" (Mat.ofFn rows cols f) (CostMap.setGeometry (⟨rows, cols⟩ : Vec ℚ) 1 ⟨0, 0⟩ (CostMap.new [])).2).2

theorem grid_coherent (rows cols : Nat) (f : Int → Int → Cost) : (grid rows cols f).Coherent := by
  have h0 : (CostMap.new [] : CostMap ℚ).Coherent := CostMap.new_coherent (by simp)
  exact CostMap.add_coherent _ _ _ (CostMap.setGeometry_coherent _ _ _ _ h0)

/-- One obstacle, an unknown cell and a known cost. -/
def spot : CostMap ℚ := grid 3 3 fun i j => if i = 1 ∧ j = 1 then 254 else if i = 0 ∧ j = 0 then 255 else
  if i = 2 then 40 else 0

theorem spot_coherent : spot.Coherent := grid_coherent _ _ _

/-- A falling cost. -/
def falling (d : ℚ) : Cost := if d ≤ 0 then 254 else if d ≤ 1 then 253 else 30

end Demo
end CostMapModel

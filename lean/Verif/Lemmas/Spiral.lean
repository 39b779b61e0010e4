import Verif.Lemmas.Ring
import Verif.Lemmas.Geometry

/-! # Helper lemmas for the spiral iterator -/

set_option linter.unusedSectionVars false

namespace CostMapModel
namespace SpiralIter
variable {K : Type} [Field K] [LinearOrder K] [IsStrictOrderedRing K] [FloorRing K]
open CostMap

/-- The cells ring `d` contributes, in the order they are visited. -/
def ringCells (it : SpiralIter K) (d : Nat) : List Idx :=
  match ringOffsets d with
  | none => []
  | some os => ((os.filter (it.keeps d)).map (· + it.indexCenter)).reverse

/-- The same iterator at another place. -/
def at' (it : SpiralIter K) (k : Nat) (ps : List Idx) : SpiralIter K := { it with distance := k, points := ps }

theorem ringCells_at' (it : SpiralIter K) (k : Nat) (ps : List Idx) (d : Nat) :
    (it.at' k ps).ringCells d = it.ringCells d := rfl

theorem generateRing_at' (it : SpiralIter K) (k : Nat) :
    (it.at' k []).generateRing = .ok (it.at' (k + 1) (it.ringCells (k + 1))) := by
  obtain ⟨os, h, -⟩ := ringOffsets_spec (d := k + 1) (by omega)
  unfold generateRing ringCells
  simp only [at', h, List.append_nil]
  rfl

theorem visits_spiral (it : SpiralIter K) (j : Nat) : ∀ (k : Nat) (ps : List Idx), k + j = it.nRings →
    (ps ≠ [] ∨ k = it.nRings) → (∀ i, k < i → i < it.nRings → it.ringCells i ≠ []) →
    Visits ops (it.at' k ps) (ps ++ (List.range' (k + 1) j).flatMap it.ringCells) := by
  induction j with
  | zero =>
    intro k ps hk _ _
    have hk' : k = it.nRings := by omega
    simp only [List.range'_zero, List.flatMap_nil, List.append_nil]
    induction ps with
    | nil =>
      refine .done ?_
      simp [ops, isPastEnd, at', hk']
    | cons p ps ih =>
      refine .step (s' := it.at' k ps) ?_ rfl ?_ (ih (Or.inr hk'))
      · simp [ops, isPastEnd, at']
      · simp only [ops, next, at', isPastEnd, hk']
        cases ps <;> simp
  | succ j ihj =>
    intro k ps hk hps hring
    have hps' : ps ≠ [] := by
      rcases hps with h | h
      · exact h
      · omega
    induction ps with
    | nil => exact absurd rfl hps'
    | cons p ps ih =>
      cases ps with
      | nil =>
        have hne : ¬ k = it.nRings := by omega
        refine .step (s' := it.at' (k + 1) (it.ringCells (k + 1))) ?_ rfl ?_ ?_
        · simp [ops, isPastEnd, at']
        · have := generateRing_at' it k
          simp only [ops, next, at', isPastEnd, hne, decide_false, List.isEmpty_nil, Bool.false_and, Bool.not_false,
            Bool.and_self, if_true]
          exact this
        · rw [List.range'_succ, List.flatMap_cons]
          refine ihj (k + 1) _ (by omega) ?_ (fun i h1 h2 => hring i (by omega) h2)
          by_cases h : k + 1 = it.nRings
          · exact Or.inr h
          · exact Or.inl (hring (k + 1) (by omega) (by omega))
      | cons q qs =>
        refine .step (s' := it.at' k (q :: qs)) ?_ rfl ?_ (ih (Or.inl (by simp)) (by simp))
        · simp [ops, isPastEnd, at']
        · simp [ops, next, at']

theorem mem_ringCells (it : SpiralIter K) {d : Nat} (hd : 0 < d) (i : Idx) :
    i ∈ it.ringCells d ↔ InAnnulus d (i - it.indexCenter) ∧ it.keeps d (i - it.indexCenter) = true := by
  obtain ⟨os, h, -, mem⟩ := ringOffsets_spec hd
  unfold ringCells
  simp only [h, List.mem_reverse, List.mem_map, List.mem_filter, mem]
  constructor
  · rintro ⟨o, ⟨h1, h2⟩, rfl⟩
    have e : o + it.indexCenter - it.indexCenter = o := by ext <;> simp
    rw [e]; exact ⟨h1, h2⟩
  · rintro ⟨h1, h2⟩
    exact ⟨_, ⟨h1, h2⟩, by ext <;> simp⟩

theorem ringCells_nodup (it : SpiralIter K) {d : Nat} (hd : 0 < d) : (it.ringCells d).Nodup := by
  obtain ⟨os, h, nd, -⟩ := ringOffsets_spec hd
  unfold ringCells
  simp only [h]
  rw [List.nodup_reverse]
  refine List.Nodup.map ?_ (nd.filter _)
  intro a b hab
  have h1 := congrArg Idx.x hab
  have h2 := congrArg Idx.y hab
  simp only [Idx.add_x, Idx.add_y] at h1 h2
  exact Idx.ext (by omega) (by omega)

theorem annulus_unique {d e : Nat} {p : Idx} (h1 : InAnnulus d p) (h2 : InAnnulus e p) : d = e := by
  obtain ⟨a, b⟩ := h1
  obtain ⟨c, f⟩ := h2
  rcases lt_trichotomy d e with h | h | h
  · exfalso
    have : (d : Int) + 1 ≤ e := by omega
    nlinarith
  · exact h
  · exfalso
    have : (e : Int) + 1 ≤ d := by omega
    nlinarith

theorem annulus_exists (p : Idx) : ∃ d, InAnnulus d p := by
  have h : normIs (Nat.sqrt (p.x * p.x + p.y * p.y).toNat) p.x p.y = true := by simp [normIs]
  exact ⟨_, normIs_iff.mp h⟩

theorem annulus_zero {p : Idx} (h : InAnnulus 0 p) : p = 0 := by
  obtain ⟨-, h2⟩ := h
  push_cast at h2
  have h1 : p.x ^ 2 + p.y ^ 2 < 1 := by linarith
  have hx : p.x = 0 := by nlinarith [sq_nonneg p.x, sq_nonneg p.y]
  have hy : p.y = 0 := by nlinarith [sq_nonneg p.x, sq_nonneg p.y]
  exact Idx.ext hx hy

end SpiralIter
end CostMapModel

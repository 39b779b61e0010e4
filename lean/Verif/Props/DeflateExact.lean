import Verif.Props.Deflate

/-! # Exactly when deflation undoes inflation (C47) -/

set_option linter.unusedSectionVars false

namespace CostMapModel
open Inflation CostMap
variable {K : Type} [Field K] [LinearOrder K] [IsStrictOrderedRing K] [FloorRing K]

/-- C47, exactly. Let the computer give an obstacle's own cell at most `LETHAL_OBSTACLE` and its neighbourhood less. Then
deflation after inflation restores a cell if and only if the cell was free, or lethal, or was unknown and stayed so in the
inflated layer. -/
theorem C47_restored_iff {pop : Pop K} {hyp : Nat → Nat → K} {computer : K → Cost} {radius : K}
    {m : CostMap K} {o : Inflater K} (hc : m.Coherent) (hres : 0 < m.resolution) {ls : String}
    (hls : m.exists ls = true) (ld lt : String) (hn : radiusInCells radius m.resolution < 2 ^ 32 - 1) (hpop : PopOk pop)
    (hh : HypOk hyp (radiusInCells radius m.resolution)) (ho : Used hyp computer m.resolution o) (log : List Idx)
    (h1 : ∀ q, m.Lethal ls q → inflationCost hyp computer m.resolution q q ≤ LETHAL_OBSTACLE)
    (h2 : ∀ i q, i.In m.size → m.Lethal ls q → i ≠ q →
      sqDist i q ≤ radiusInCells radius m.resolution * radiusInCells radius m.resolution →
      inflationCost hyp computer m.resolution i q < LETHAL_OBSTACLE) :
    ∃ st' m'', inflate pop hyp ls ld radius computer ⟨o, m, log⟩ = (.ok (), st') ∧
      deflate false ld lt st'.map = (.ok (), m'') ∧ ∀ i, i.In m.size → (m''.at lt i = m.at ls i ↔
        m.at ls i = .ok FREE_SPACE ∨ m.at ls i = .ok LETHAL_OBSTACLE ∨
          m.at ls i = .ok NO_INFORMATION ∧ st'.map.at ld i = .ok NO_INFORMATION) := by
  obtain ⟨st', e1, -, -, -, -, hcoh⟩ := C40_terminates_in_bounds hc hres hls ld hn hpop hh ho log
  obtain ⟨st2, e2, -, -, hlay, -, hcell⟩ := C38_only_near_obstacles hc hres hls ld hn hpop hh ho log
  rw [e1] at e2
  obtain rfl : st' = st2 := (Prod.mk.inj e2).2
  have hld : st'.map.exists ld = true := by
    have : ld ∈ st'.map.layers := by
      rw [hlay]
      split
      · rename_i h; exact (hc.mem_iff ld).mpr h
      · simp
    exact (hcoh.mem_iff ld).mp this
  obtain ⟨m'', g1, -, -, -, -, -, -, g8⟩ := C46_deflate false hcoh hld lt
  refine ⟨st', m'', e1, g1, fun i hi => ?_⟩
  obtain ⟨v, hv⟩ := hc.at_ok hls hi
  rw [hv]
  simp only [Res.ok.injEq]
  have keep : ∀ w : Cost, 254 ≤ w.toNat → Kept false w := fun w hw => hw
  have drop : ∀ w : Cost, w.toNat < 254 → ¬ Kept false w := by
    intro w hw h
    have : 254 ≤ w.toNat := h
    omega
  obtain ⟨w, hw⟩ : ∃ w, st'.map.at ld i = .ok w := by
    rcases hcell i v hi hv with h | ⟨q, -, -, h⟩ <;> exact ⟨_, h⟩
  constructor
  · intro h
    by_cases hk : Kept false w
    · have e := (g8 i w hw).1 hk
      rw [h] at e
      obtain rfl : v = w := Res.ok.inj e
      have hk' : 254 ≤ v.toNat := hk
      have hlt : v.toNat < 256 := v.toNat_lt
      have : v.toNat = 254 ∨ v.toNat = 255 := by omega
      rcases this with h' | h'
      · exact Or.inr (Or.inl (UInt8.toNat_inj.mp h'))
      · have hv' : v = NO_INFORMATION := UInt8.toNat_inj.mp h'
        exact Or.inr (Or.inr ⟨hv', by rw [hw, hv']⟩)
    · have e := (g8 i w hw).2.1 hk
      rw [h] at e
      exact Or.inl (Res.ok.inj e)
  · intro h
    rcases h with rfl | rfl | ⟨rfl, h⟩
    · rcases hcell i _ hi hv with h | ⟨q, hq, hd, h⟩
      · exact (g8 i _ h).2.1 (drop _ (by decide))
      · have hne : i ≠ q := by
          rintro rfl
          have := hv.symm.trans hq.2
          exact absurd (Res.ok.inj this) (by decide)
        have hlt := h2 i q hi hq hne hd
        rw [UInt8.lt_iff_toNat_lt] at hlt
        refine (g8 i _ h).2.1 (drop _ ?_)
        unfold combined
        rw [if_neg (by decide)]
        split
        · decide
        · exact hlt
    · rcases hcell i _ hi hv with h | ⟨q, hq, hd, h⟩
      · exact (g8 i _ h).1 (keep _ (by decide))
      · have hle : inflationCost hyp computer m.resolution i q ≤ LETHAL_OBSTACLE := by
          by_cases hiq : i = q
          · subst hiq; exact h1 i hq
          · exact UInt8.le_of_lt (h2 i q hi hq hiq hd)
        have : combined LETHAL_OBSTACLE (inflationCost hyp computer m.resolution i q) = LETHAL_OBSTACLE := by
          unfold combined
          rw [if_neg (by decide), if_pos hle]
        rw [this] at h
        exact (g8 i _ h).1 (keep _ (by decide))
    · exact (g8 i _ h).2.2 rfl

open Demo in
/-- The hypotheses hold of the map on which C47 fails, and both sides of the equivalence occur there. -/
example : ∃ st' m'', inflate pop hyp "s" "t" 1 falling ⟨Inflater.new, edge, []⟩ = (.ok (), st') ∧
    deflate false "t" "t" st'.map = (.ok (), m'') ∧ m''.at "t" ⟨0, 0⟩ = edge.at "s" ⟨0, 0⟩ ∧
    m''.at "t" ⟨1, 0⟩ ≠ edge.at "s" ⟨1, 0⟩ := by
  have hcoh : edge.Coherent := grid_coherent _ _ _
  have hsize : edge.size = ⟨2, 1⟩ := by decide +kernel
  have hin : ∀ i, i.In edge.size → i ∈ colMajor 2 1 := by
    intro i hi
    rw [hsize] at hi
    unfold Idx.In at hi
    simp only at hi
    rw [mem_colMajor]; omega
  obtain ⟨st', m'', e1, e2, h⟩ := C47_restored_iff (pop := pop) (hyp := hyp) (computer := falling) (radius := 1) hcoh
    (by decide +kernel) (ls := "s") (by decide +kernel) "t" "t" (by decide +kernel) pop_ok (hyp_ok _) .new []
    (by rintro q ⟨hq, -⟩
        have key : ∀ q ∈ colMajor 2 1, inflationCost hyp falling edge.resolution q q ≤ LETHAL_OBSTACLE := by decide +kernel
        exact key q (hin q hq))
    (by rintro i q hi ⟨hq, -⟩ hne -
        have key : ∀ i ∈ colMajor 2 1, ∀ q ∈ colMajor 2 1, i ≠ q →
          inflationCost hyp falling edge.resolution i q < LETHAL_OBSTACLE := by decide +kernel
        exact key i (hin i hi) q (hin q hq) hne)
  have est : st'.map.at "t" ⟨1, 0⟩ = .ok INSCRIBED_OBSTACLE := by
    have : st' = (inflate pop hyp "s" "t" 1 falling ⟨Inflater.new, edge, []⟩).2 := by rw [e1]
    rw [this]; decide +kernel
  refine ⟨st', m'', e1, e2, (h ⟨0, 0⟩ (by rw [hsize]; decide)).mpr (Or.inr (Or.inl (by decide +kernel))), fun hr => ?_⟩
  rcases (h ⟨1, 0⟩ (by rw [hsize]; decide)).mp hr with h' | h' | ⟨-, h'⟩
  · revert h'; decide +kernel
  · revert h'; decide +kernel
  · rw [est] at h'; exact absurd (Res.ok.inj h') (by decide)

end CostMapModel

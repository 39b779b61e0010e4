import Verif.Props.Inflation
import Mathlib.Analysis.SpecialFunctions.Exp
import Mathlib.Algebra.Order.Archimedean.Real.Basic

/-! # The ROS inflation cost and deflation: C45 - C47, C04 -/

set_option linter.unusedSectionVars false

namespace CostMapModel
open Inflation CostMap
variable {K : Type} [Field K] [LinearOrder K] [IsStrictOrderedRing K] [FloorRing K]

/-! ## C45 -/

section
variable {rf rd exp : K → K}

/-- Beyond the inscribed radius the value converted lies in `[0, 252]`. -/
theorem rosCost_beyond (hf : RoundOk rf) (hd : RoundOk rd) (hd' : rd 252 = 252) (he : ExpOk exp) {r w d : K}
    (hw : 0 ≤ w) (h0 : d ≠ 0) (hr : r < d) :
    0 ≤ rd (252 * exp (rd (-1 * w * rf (d - r)))) ∧ rd (252 * exp (rd (-1 * w * rf (d - r)))) ≤ 252 ∧
    rosCost rf rd exp r w d = .ok (UInt8.ofNat ⌊rd (252 * exp (rd (-1 * w * rf (d - r))))⌋.toNat) := by
  have h1 : 0 ≤ rf (d - r) := by rw [← hf.zero]; exact hf.mono (by linarith)
  have h2 : rd (-1 * w * rf (d - r)) ≤ 0 := by rw [← hd.zero]; exact hd.mono (by nlinarith)
  have h3 : exp (rd (-1 * w * rf (d - r))) ≤ 1 := by have := he.mono h2; rwa [he.zero] at this
  have h4 := he.nonneg (rd (-1 * w * rf (d - r)))
  have h5 : 0 ≤ rd (252 * exp (rd (-1 * w * rf (d - r)))) := by
    have := hd.mono (show (0 : K) ≤ 252 * exp (rd (-1 * w * rf (d - r))) by positivity)
    rwa [hd.zero] at this
  have h6 : rd (252 * exp (rd (-1 * w * rf (d - r)))) ≤ 252 := by
    have := hd.mono (show 252 * exp (rd (-1 * w * rf (d - r))) ≤ (252 : K) by linarith)
    rwa [hd'] at this
  refine ⟨h5, h6, ?_⟩
  unfold rosCost
  rw [if_neg h0, if_neg (not_le.mpr hr)]
  simp only
  rw [if_pos ⟨by linarith, by linarith⟩]

theorem floor_toNat_le {x : K} (h : x ≤ 252) : ⌊x⌋.toNat ≤ 252 := by
  have : ⌊x⌋ ≤ 252 := by
    have := Int.floor_le x
    have h' : ((⌊x⌋ : Int) : K) ≤ ((252 : Int) : K) := by push_cast; linarith
    exact_mod_cast h'
  omega

/-- C45. The ROS inflation cost for a non-negative weight, whatever the monotone roundings: lethal at distance 0,
inscribed up to the inscribed radius, at most 252 beyond, and never increasing with the distance. -/
theorem C45_ros_cost_curve (hf : RoundOk rf) (hd : RoundOk rd) (hd' : rd 252 = 252) (he : ExpOk exp) (r : K) {w : K}
    (hw : 0 ≤ w) :
    rosCost rf rd exp r w 0 = .ok LETHAL_OBSTACLE ∧
    (∀ d, 0 < d → d ≤ r → rosCost rf rd exp r w d = .ok INSCRIBED_OBSTACLE) ∧
    (∀ d, 0 < d → r < d → ∃ c : Cost, rosCost rf rd exp r w d = .ok c ∧ c.toNat ≤ 252) ∧
    ∀ d d', 0 ≤ d → d ≤ d' → ∃ c c' : Cost, rosCost rf rd exp r w d = .ok c ∧ rosCost rf rd exp r w d' = .ok c' ∧
      c' ≤ c := by
  have a1 : rosCost rf rd exp r w 0 = .ok LETHAL_OBSTACLE := by simp [rosCost]
  have a2 : ∀ d, 0 < d → d ≤ r → rosCost rf rd exp r w d = .ok INSCRIBED_OBSTACLE := by
    intro d h0 h
    unfold rosCost
    rw [if_neg h0.ne', if_pos h]
  have a3 : ∀ d, 0 < d → r < d → ∃ c : Cost, rosCost rf rd exp r w d = .ok c ∧ c.toNat ≤ 252 := by
    intro d h0 h
    obtain ⟨-, h2, h3⟩ := rosCost_beyond hf hd hd' he hw h0.ne' h
    refine ⟨_, h3, ?_⟩
    have := floor_toNat_le h2
    rw [UInt8.toNat_ofNat']
    omega
  refine ⟨a1, a2, a3, ?_⟩
  intro d d' h0 hdd
  have any : ∀ d, 0 ≤ d → ∃ c : Cost, rosCost rf rd exp r w d = .ok c ∧ c.toNat ≤ 254 ∧ (0 < d → c.toNat ≤ 253) ∧
      (r < d → 0 < d → c.toNat ≤ 252) := by
    intro d h0
    rcases h0.eq_or_lt with rfl | h0
    · exact ⟨_, a1, by decide, fun h => absurd h (lt_irrefl _), fun _ h => absurd h (lt_irrefl _)⟩
    · rcases le_or_gt d r with h | h
      · exact ⟨_, a2 d h0 h, by decide, fun _ => by decide, fun h' => absurd h (not_le.mpr h')⟩
      · obtain ⟨c, h1, h2⟩ := a3 d h0 h
        exact ⟨c, h1, by omega, fun _ => by omega, fun _ _ => h2⟩
  obtain ⟨c', hc', b1, b2, b3⟩ := any d' (h0.trans hdd)
  rcases h0.eq_or_lt with rfl | h0
  · exact ⟨_, c', a1, hc', UInt8.le_iff_toNat_le.mpr b1⟩
  · have h0' := h0.trans_le hdd
    rcases le_or_gt d r with h | h
    · exact ⟨_, c', a2 d h0 h, hc', UInt8.le_iff_toNat_le.mpr (b2 h0')⟩
    · have h' := h.trans_le hdd
      obtain ⟨x1, x2, x3⟩ := rosCost_beyond hf hd hd' he hw h0.ne' h
      obtain ⟨y1, y2, y3⟩ := rosCost_beyond hf hd hd' he hw h0'.ne' h'
      refine ⟨_, _, x3, y3, ?_⟩
      have m1 : rf (d - r) ≤ rf (d' - r) := hf.mono (by linarith)
      have m2 : rd (252 * exp (rd (-1 * w * rf (d' - r)))) ≤ rd (252 * exp (rd (-1 * w * rf (d - r)))) := by
        refine hd.mono (mul_le_mul_of_nonneg_left (he.mono (hd.mono ?_)) (by norm_num))
        nlinarith
      have m3 := Int.toNat_le_toNat (Int.floor_le_floor m2)
      have m4 := floor_toNat_le x2
      have m5 := floor_toNat_le y2
      rw [UInt8.le_iff_toNat_le, UInt8.toNat_ofNat', UInt8.toNat_ofNat']
      omega

end

/-- The exact exponential function without rounding is an instance. -/
theorem real_exp_ok : ExpOk Real.exp := ⟨Real.exp_monotone, fun x => (Real.exp_pos x).le, Real.exp_zero⟩

example := C45_ros_cost_curve (K := ℝ) ⟨monotone_id, rfl⟩ ⟨monotone_id, rfl⟩ rfl real_exp_ok (1 / 2) (w := 10)
  (by norm_num)

/-- The condition on the weight is needed: with weight -1 the conversion is undefined behaviour one metre beyond the
inscribed radius. -/
theorem C45_negative_weight : rosCost id id Real.exp 1 (-1) 2 = .ub := by
  unfold rosCost
  rw [if_neg (by norm_num), if_neg (by norm_num)]
  simp only [id]
  rw [if_neg]
  rintro ⟨-, h⟩
  have := Real.add_one_le_exp (-1 * -1 * (2 - 1 : ℝ))
  norm_num at this h
  linarith

/-! ## C46 -/

theorem kept_iff {keep : Bool} {v : Cost} :
    Kept keep v ↔ (if keep then INSCRIBED_OBSTACLE else LETHAL_OBSTACLE) ≤ v := by
  unfold Kept
  rw [UInt8.le_iff_toNat_le]
  cases keep <;> exact Iff.rfl

/-- C46. Deflation succeeds on an existing layer, also in place (`ld = ls`), keeps the geometry and the other layers,
and leaves in each destination cell the source cost if that is at least the threshold and `FREE_SPACE` otherwise. -/
theorem C46_deflate (keep : Bool) {m : CostMap K} (hc : m.Coherent) {ls : String} (hls : m.exists ls = true)
    (ld : String) : ∃ m', deflate keep ls ld m = (.ok (), m') ∧ SameGeometry m m' ∧ SameMeta m m' ∧ m'.Coherent ∧
      m'.layers = (if m.exists ld then m.layers else m.layers ++ [ld]) ∧ m'.exists ld = true ∧
      (∀ l, l ≠ ld → m'.get l = m.get l) ∧
      ∀ i v, m.at ls i = .ok v →
        (Kept keep v → m'.at ld i = .ok v) ∧ (¬ Kept keep v → m'.at ld i = .ok FREE_SPACE) ∧
        (v = NO_INFORMATION → m'.at ld i = .ok NO_INFORMATION) := by
  obtain ⟨m', h1, h2, h3, h4, h5, h6, h7, h8⟩ := deflate_spec keep hc hls ld
  refine ⟨m', h1, h2, h3, h5, h4, h6, fun l hl => get_congr (h7 l hl), fun i v hv => ?_⟩
  have := h8 i v hv
  refine ⟨fun h => by rw [this, if_pos (kept_iff.mp h)], fun h => by rw [this, if_neg (fun h' => h (kept_iff.mpr h'))], ?_⟩
  rintro rfl
  rw [this, if_pos (by cases keep <;> decide)]

/-- C46. Deflating twice, from the first result into any layer, gives the first result again. -/
theorem C46_deflate_twice (keep : Bool) {m : CostMap K} (hc : m.Coherent) {ls : String} (hls : m.exists ls = true)
    (ld ld' : String) : ∃ m' m'', deflate keep ls ld m = (.ok (), m') ∧ deflate keep ld ld' m' = (.ok (), m'') ∧
      ∀ i, i.In m.size → m''.at ld' i = m'.at ld i := by
  obtain ⟨m', h1, h2, -, h4, -, h6, -, h8⟩ := C46_deflate keep hc hls ld
  obtain ⟨m'', g1, -, -, -, -, -, -, g8⟩ := C46_deflate keep h4 h6 ld'
  refine ⟨m', m'', h1, g1, fun i hi => ?_⟩
  obtain ⟨v, hv⟩ := hc.at_ok hls hi
  by_cases hk : Kept keep v
  · have := (h8 i v hv).1 hk
    rw [this]; exact (g8 i v this).1 hk
  · have := (h8 i v hv).2.1 hk
    rw [this]
    exact (g8 i _ this).2.1 (by unfold Kept; cases keep <;> decide)

example := C46_deflate true Demo.base_coherent (ls := "a") (by decide +kernel) "a"
example := C46_deflate_twice false Demo.base_coherent (ls := "a") (by decide +kernel) "b" "c"
/-- Both cases occur. -/
example : Kept false LETHAL_OBSTACLE ∧ ¬ Kept false INSCRIBED_OBSTACLE ∧ Kept true INSCRIBED_OBSTACLE := by
  unfold Kept; decide

/-- C04 for deflation. -/
theorem C04_deflate_missing_layer (keep : Bool) (m : CostMap K) {ls : String} (hls : m.exists ls = false) (ld : String) :
    deflate keep ls ld m = (.thrown .outOfRange, m) := by
  have hd : m.data ls = none := by
    unfold CostMap.exists at hls
    cases h : m.data ls with
    | none => rfl
    | some _ => rw [h] at hls; cases hls
  simp only [deflate, Act.bind, Act.read, CostMap.get, hd]

example := C04_deflate_missing_layer true Demo.base (ls := "z") (by decide +kernel) "a"

/-! ## C47 -/

/-- C47, partial. Source cells are free, lethal or unknown; the computer gives an obstacle's own cell at most
`LETHAL_OBSTACLE` and its neighbourhood less; no unknown cell gets an inscribed cost. Then deflation (which strips the
inscribed region) after inflation restores the source, through any layers and also in place. Missing: unknown cells that
receive an inscribed cost, where the claim fails (`C47_false`). -/
theorem C47_deflate_undoes_inflate_partial {pop : Pop K} {hyp : Nat → Nat → K} {computer : K → Cost} {radius : K}
    {m : CostMap K} {o : Inflater K} (hc : m.Coherent) (hres : 0 < m.resolution) {ls : String}
    (hls : m.exists ls = true) (ld lt : String) (hn : radiusInCells radius m.resolution < 2 ^ 32 - 1) (hpop : PopOk pop)
    (hh : HypOk hyp (radiusInCells radius m.resolution)) (ho : Used hyp computer m.resolution o) (log : List Idx)
    (hsrc : ∀ i v, m.at ls i = .ok v → v = FREE_SPACE ∨ v = LETHAL_OBSTACLE ∨ v = NO_INFORMATION)
    (h1 : ∀ q, m.Lethal ls q → inflationCost hyp computer m.resolution q q ≤ LETHAL_OBSTACLE)
    (h2 : ∀ i q, i.In m.size → m.Lethal ls q → i ≠ q →
      sqDist i q ≤ radiusInCells radius m.resolution * radiusInCells radius m.resolution →
      inflationCost hyp computer m.resolution i q < LETHAL_OBSTACLE)
    (h3 : ∀ i q, m.at ls i = .ok NO_INFORMATION → m.Lethal ls q →
      sqDist i q ≤ radiusInCells radius m.resolution * radiusInCells radius m.resolution →
      inflationCost hyp computer m.resolution i q < INSCRIBED_OBSTACLE) :
    ∃ st' m'', inflate pop hyp ls ld radius computer ⟨o, m, log⟩ = (.ok (), st') ∧
      deflate false ld lt st'.map = (.ok (), m'') ∧ ∀ i, i.In m.size → m''.at lt i = m.at ls i := by
  obtain ⟨st', e1, -, -, -, -, hcoh⟩ := C40_terminates_in_bounds hc hres hls ld hn hpop hh ho log
  obtain ⟨st2, e2, -, -, hlay, -, hcell⟩ := C38_only_near_obstacles hc hres hls ld hn hpop hh ho log
  rw [e1] at e2
  obtain rfl : st' = st2 := (Prod.mk.inj e2).2
  have hld : st'.map.exists ld = true := by
    have : ld ∈ st'.map.layers := by
      rw [hlay]
      split
      · rename_i h; exact (hc.mem_iff ld).mpr h
      · simp
    exact (hcoh.mem_iff ld).mp this
  obtain ⟨m'', g1, -, -, -, -, -, -, g8⟩ := C46_deflate false hcoh hld lt
  refine ⟨st', m'', e1, g1, fun i hi => ?_⟩
  obtain ⟨v, hv⟩ := hc.at_ok hls hi
  rw [hv]
  have keep : ∀ w : Cost, 254 ≤ w.toNat → Kept false w := fun w hw => hw
  have drop : ∀ w : Cost, w.toNat < 254 → ¬ Kept false w := by
    intro w hw h
    have : 254 ≤ w.toNat := h
    omega
  rcases hcell i v hi hv with h | ⟨q, hq, hd, h⟩
  · rcases hsrc i v hv with rfl | rfl | rfl
    · exact (g8 i _ h).2.1 (drop _ (by decide))
    · exact (g8 i _ h).1 (keep _ (by decide))
    · exact (g8 i _ h).2.2 rfl
  · by_cases hiq : i = q
    · subst hiq
      have : v = LETHAL_OBSTACLE := by
        have := hv.symm.trans hq.2
        injection this
      subst this
      have hle := h1 i hq
      have : combined LETHAL_OBSTACLE (inflationCost hyp computer m.resolution i i) = LETHAL_OBSTACLE := by
        unfold combined
        rw [if_neg (by decide), if_pos hle]
      rw [this] at h
      exact (g8 i _ h).1 (keep _ (by decide))
    · have hlt := h2 i q hi hq hiq hd
      rw [UInt8.lt_iff_toNat_lt] at hlt
      have hlt' : (inflationCost hyp computer m.resolution i q).toNat < 254 := hlt
      rcases hsrc i v hv with rfl | rfl | rfl
      · refine (g8 i _ h).2.1 (drop _ ?_)
        unfold combined
        rw [if_neg (by decide)]
        split
        · decide
        · exact hlt'
      · have : combined LETHAL_OBSTACLE (inflationCost hyp computer m.resolution i q) = LETHAL_OBSTACLE := by
          unfold combined
          rw [if_neg (by decide), if_pos (UInt8.le_iff_toNat_le.mpr (by
            show _ ≤ 254
            omega))]
        rw [this] at h
        exact (g8 i _ h).1 (keep _ (by decide))
      · have h3' := h3 i q hv hq hd
        have : combined NO_INFORMATION (inflationCost hyp computer m.resolution i q) = NO_INFORMATION := by
          unfold combined
          rw [if_pos rfl, if_neg (fun hle => by
            rw [UInt8.lt_iff_toNat_lt] at h3'
            rw [UInt8.le_iff_toNat_le] at hle
            omega)]
        rw [this] at h
        exact (g8 i _ h).2.2 rfl

namespace Demo
/-- Two obstacles and an unknown cell out of their reach. -/
def pair : CostMap ℚ := grid 3 4 fun i j => if j = 0 ∧ i < 2 then 254 else if i = 2 ∧ j = 3 then 255 else 0
/-- Unknown next to an obstacle. -/
def edge : CostMap ℚ := grid 2 1 fun i _ => if i = 0 then 254 else 255
end Demo

open Demo in
/-- The hypotheses hold of a map with obstacles and an unknown cell, and a computer that reaches the inscribed cost. -/
example : ∃ st' m'', inflate pop hyp "s" "s" 2 falling ⟨Inflater.new, pair, []⟩ = (.ok (), st') ∧
    deflate false "s" "s" st'.map = (.ok (), m'') ∧ ∀ i, i.In pair.size → m''.at "s" i = pair.at "s" i := by
  have hcoh : pair.Coherent := grid_coherent _ _ _
  have hsize : pair.size = ⟨3, 4⟩ := by decide +kernel
  have hin : ∀ i, i.In pair.size → i ∈ colMajor 3 4 := by
    intro i hi
    rw [hsize] at hi
    unfold Idx.In at hi
    simp only at hi
    rw [mem_colMajor]; omega
  have hinAt : ∀ i v, pair.at "s" i = .ok v → i ∈ colMajor 3 4 := by
    intro i v hv
    by_cases hi : i.In pair.size
    · exact hin i hi
    · rw [hcoh.at_ub (by decide +kernel) hi] at hv; cases hv
  refine C47_deflate_undoes_inflate_partial hcoh (by decide +kernel) (by decide +kernel) "s" "s" (by decide +kernel) pop_ok
    (hyp_ok _) .new [] ?_ ?_ ?_ ?_
  · intro i v hv
    have key : ∀ i ∈ colMajor 3 4, pair.at "s" i = .ok FREE_SPACE ∨ pair.at "s" i = .ok LETHAL_OBSTACLE ∨
        pair.at "s" i = .ok NO_INFORMATION := by decide +kernel
    have := key i (hinAt i v hv)
    rw [hv] at this
    simpa using this
  · rintro q ⟨hq, -⟩
    have key : ∀ q ∈ colMajor 3 4, inflationCost hyp falling pair.resolution q q ≤ LETHAL_OBSTACLE := by decide +kernel
    exact key q (hin q hq)
  · rintro i q hi ⟨hq, -⟩ hne -
    have key : ∀ i ∈ colMajor 3 4, ∀ q ∈ colMajor 3 4, i ≠ q →
      inflationCost hyp falling pair.resolution i q < LETHAL_OBSTACLE := by decide +kernel
    exact key i (hin i hi) q (hin q hq) hne
  · rintro i q hi ⟨hq, hqs⟩ -
    have key : ∀ i ∈ colMajor 3 4, pair.at "s" i = .ok NO_INFORMATION → ∀ q ∈ colMajor 3 4,
      pair.at "s" q = .ok LETHAL_OBSTACLE →
      inflationCost hyp falling pair.resolution i q < INSCRIBED_OBSTACLE := by decide +kernel
    exact key i (hinAt i _ hi) hi q (hin q hq) hqs

/-- C47 is false: an unknown cell next to an obstacle becomes inscribed when inflated and free when deflated. -/
theorem C47_false :
    Demo.edge.Coherent ∧ Demo.edge.at "s" ⟨0, 0⟩ = .ok LETHAL_OBSTACLE ∧
    Demo.edge.at "s" ⟨1, 0⟩ = .ok NO_INFORMATION ∧
    (deflate false "t" "t" (inflate Demo.pop Demo.hyp "s" "t" 1 Demo.falling
      ⟨Inflater.new, Demo.edge, []⟩).2.map).2.at "t" ⟨1, 0⟩ = .ok FREE_SPACE := by
  refine ⟨Demo.grid_coherent _ _ _, ?_, ?_, ?_⟩ <;> decide +kernel

/-- C47 is also false when the inscribed region is kept: free space next to an obstacle stays inscribed. -/
theorem C47_false_keeping_inscribed :
    Demo.spot.at "s" ⟨1, 0⟩ = .ok FREE_SPACE ∧
    (deflate true "t" "t" (inflate Demo.pop Demo.hyp "s" "t" 1 Demo.falling
      ⟨Inflater.new, Demo.spot, []⟩).2.map).2.at "t" ⟨1, 0⟩ = .ok INSCRIBED_OBSTACLE := by
  constructor <;> decide +kernel

end CostMapModel

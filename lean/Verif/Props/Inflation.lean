import Verif.Lemmas.InflationGap
import Verif.Lemmas.Deflate
import Verif.Props.InflationDemo

/-! # Inflation: C38 - C44, C04 -/

set_option linter.unusedSectionVars false

namespace CostMapModel
open Inflation CostMap
variable {K : Type} [Field K] [LinearOrder K] [IsStrictOrderedRing K] [FloorRing K]

theorem superimpose_eq_combined (old cost : Cost) : superimpose old cost = combined old cost := by
  unfold superimpose combined
  by_cases h1 : old = NO_INFORMATION
  · by_cases h2 : INSCRIBED_OBSTACLE ≤ cost
    · simp [h1, h2]
    · have : ¬ (NO_INFORMATION : Cost) < cost := by
        rw [UInt8.lt_iff_toNat_lt]
        have := cost.toNat_lt
        show ¬ 255 < cost.toNat
        omega
      simp [h1, h2, this]
  · simp only [h1, false_and, if_false]
    by_cases h2 : cost ≤ old
    · have : ¬ old < cost := by rw [UInt8.lt_iff_toNat_lt, UInt8.le_iff_toNat_le] at *; omega
      simp [h2, this]
    · have : old < cost := by rw [UInt8.lt_iff_toNat_lt, UInt8.le_iff_toNat_le] at *; omega
      simp [h2, this]

theorem combined_known {old cost : Cost} (h : old ≠ NO_INFORMATION) : old ≤ combined old cost := by
  unfold combined
  rw [if_neg h]
  split
  · exact UInt8.le_refl _
  · rw [UInt8.le_iff_toNat_le] at *; omega

section
variable {pop : Pop K} {hyp : Nat → Nat → K} {computer : K → Cost} {radius : K} {m : CostMap K} {o : Inflater K}

/-- C38. A call on an existing layer succeeds. It keeps the geometry and every layer but the destination. Each
destination cell equals the source cell, or lies within the radius of some lethal source cell and combines the source
cost with the inflation cost for the distance to that cell. -/
theorem C38_only_near_obstacles (hc : m.Coherent) (hres : 0 < m.resolution) {ls : String} (hls : m.exists ls = true)
    (ld : String) (hn : radiusInCells radius m.resolution < 2 ^ 32 - 1) (hpop : PopOk pop)
    (hh : HypOk hyp (radiusInCells radius m.resolution)) (ho : Used hyp computer m.resolution o) (log : List Idx) :
    ∃ st', inflate pop hyp ls ld radius computer ⟨o, m, log⟩ = (.ok (), st') ∧
      SameGeometry m st'.map ∧ SameMeta m st'.map ∧
      st'.map.layers = (if m.exists ld then m.layers else m.layers ++ [ld]) ∧
      (∀ l, l ≠ ld → st'.map.get l = m.get l) ∧
      ∀ i v, i.In m.size → m.at ls i = .ok v →
        st'.map.at ld i = .ok v ∨
        ∃ q, m.Lethal ls q ∧ sqDist i q ≤ radiusInCells radius m.resolution * radiusInCells radius m.resolution ∧
          st'.map.at ld i = .ok (combined v (inflationCost hyp computer m.resolution i q)) := by
  obtain ⟨st', s, h1, h2, h3, h4, h5, h6, h7, hs, h8, h9, -⟩ :=
    inflate_run hc hres hls ld hn hpop hh (Used.ready ho).1 (.inr (Used.ready ho)) log
  obtain ⟨hl, -⟩ := Loop.run (size := m.size) (s := s) hh hpop
  refine ⟨st', h1, h2, h3, h4, fun l hl => get_congr (h5 l hl), ?_⟩
  intro i v hi hv
  rw [hs i hi] at hv; cases hv
  rw [h8 i hi]
  unfold Tags.out
  cases ht : (Tags.run pop hyp (radiusInCells radius m.resolution) m.size s).tag i with
  | none => exact .inl rfl
  | some q =>
    obtain ⟨-, hq, hsq, hd⟩ := hl.inv.t i q ht
    exact .inr ⟨q, ⟨hq, by rw [hs q hq, hsq]⟩, hd, by simp only [superimpose_eq_combined]⟩

/-- C39. No known cost decreases, lethal cells stay at least lethal, and an unknown cell changes only to an inflation
cost of at least `INSCRIBED_OBSTACLE` of an obstacle in range. -/
theorem C39_never_hides_an_obstacle (hc : m.Coherent) (hres : 0 < m.resolution) {ls : String}
    (hls : m.exists ls = true) (ld : String) (hn : radiusInCells radius m.resolution < 2 ^ 32 - 1) (hpop : PopOk pop)
    (hh : HypOk hyp (radiusInCells radius m.resolution)) (ho : Used hyp computer m.resolution o) (log : List Idx) :
    ∃ st', inflate pop hyp ls ld radius computer ⟨o, m, log⟩ = (.ok (), st') ∧
      ∀ i v, i.In m.size → m.at ls i = .ok v → ∃ v', st'.map.at ld i = .ok v' ∧
        (v ≠ NO_INFORMATION → v ≤ v') ∧ (v = LETHAL_OBSTACLE → LETHAL_OBSTACLE ≤ v') ∧
        (v = NO_INFORMATION → v' ≠ v → INSCRIBED_OBSTACLE ≤ v' ∧ ∃ q, m.Lethal ls q ∧
          sqDist i q ≤ radiusInCells radius m.resolution * radiusInCells radius m.resolution ∧
          v' = inflationCost hyp computer m.resolution i q) := by
  obtain ⟨st', h1, -, -, -, -, h⟩ := C38_only_near_obstacles hc hres hls ld hn hpop hh ho log
  refine ⟨st', h1, fun i v hi hv => ?_⟩
  rcases h i v hi hv with h | ⟨q, hq, hd, h⟩
  · exact ⟨v, h, fun _ => UInt8.le_refl _, fun h => h ▸ UInt8.le_refl _, fun _ h => absurd rfl h⟩
  · refine ⟨_, h, combined_known, fun hv => by subst hv; exact combined_known (by decide), fun hv hne => ?_⟩
    unfold combined at hne ⊢
    rw [if_pos hv] at hne ⊢
    split at hne
    · rename_i hge
      rw [if_pos hge]
      exact ⟨hge, q, hq, hd, rfl⟩
    · exact absurd rfl hne

/-- C40. The call terminates without undefined behaviour (the outcome `ok` includes that every access to the caches,
the seen map and the layers was in bounds), pushes only cells of the map and each at most once, and leaves the queue
empty. -/
theorem C40_terminates_in_bounds (hc : m.Coherent) (hres : 0 < m.resolution) {ls : String}
    (hls : m.exists ls = true) (ld : String) (hn : radiusInCells radius m.resolution < 2 ^ 32 - 1) (hpop : PopOk pop)
    (hh : HypOk hyp (radiusInCells radius m.resolution)) (ho : Used hyp computer m.resolution o) (log : List Idx) :
    ∃ st', inflate pop hyp ls ld radius computer ⟨o, m, log⟩ = (.ok (), st') ∧
      st'.pushed.Nodup ∧ (∀ c ∈ st'.pushed, c.In m.size) ∧ st'.pushed.length ≤ m.size.x.toNat * m.size.y.toNat ∧
      st'.obj.queue = [] ∧ st'.map.Coherent := by
  obtain ⟨st', s, h1, h2, h3, h4, h5, h6, h7, hs, h8, h9, h10⟩ :=
    inflate_run hc hres hls ld hn hpop hh (Used.ready ho).1 (.inr (Used.ready ho)) log
  obtain ⟨hl, -⟩ := Loop.run (size := m.size) (s := s) hh hpop
  refine ⟨st', h1, by rw [h9]; exact hl.inv.pn, ?_, by rw [h9]; exact hl.inv.count, h10, h7⟩
  intro c hcp
  rw [h9] at hcp
  obtain ⟨q, hq⟩ := Option.isSome_iff_exists.mp ((hl.inv.pm c).mp hcp)
  exact (hl.inv.t c q hq).1

/-- C41. Every cell in Manhattan range of a lethal cell is inflated, from a lethal cell that is no farther than that
Manhattan distance and no nearer than the nearest lethal cell. -/
theorem C41_manhattan_range (hc : m.Coherent) (hres : 0 < m.resolution) {ls : String}
    (hls : m.exists ls = true) (ld : String) (hn : radiusInCells radius m.resolution < 2 ^ 32 - 1) (hpop : PopOk pop)
    (hh : HypOk hyp (radiusInCells radius m.resolution)) (ho : Used hyp computer m.resolution o) (log : List Idx) :
    ∃ st', inflate pop hyp ls ld radius computer ⟨o, m, log⟩ = (.ok (), st') ∧
      ∀ i v L, i.In m.size → m.at ls i = .ok v → m.Lethal ls L →
        manhattan i L ≤ radiusInCells radius m.resolution →
        i ∈ st'.pushed ∧ ∃ q, m.Lethal ls q ∧ sqDist i q ≤ manhattan i L * manhattan i L ∧
          (∀ d, (∀ L', m.Lethal ls L' → d ≤ sqDist i L') → d ≤ sqDist i q) ∧
          st'.map.at ld i = .ok (combined v (inflationCost hyp computer m.resolution i q)) := by
  obtain ⟨st', s, h1, h2, h3, h4, h5, h6, h7, hs, h8, h9, h10⟩ :=
    inflate_run hc hres hls ld hn hpop hh (Used.ready ho).1 (.inr (Used.ready ho)) log
  obtain ⟨hl, hq⟩ := Loop.run (size := m.size) (s := s) hh hpop
  refine ⟨st', h1, ?_⟩
  rintro i v L hi hv ⟨hL, hLat⟩ hm
  rw [hs i hi] at hv; cases hv
  rw [hs L hL] at hLat
  have hLs : s L = LETHAL_OBSTACLE := by injection hLat
  obtain ⟨q, ht⟩ := hl.manhattan hq hL hLs hi rfl hm
  obtain ⟨-, hqin, hqs, -⟩ := hl.inv.t i q ht
  have hql : m.Lethal ls q := ⟨hqin, by rw [hs q hqin, hqs]⟩
  refine ⟨by rw [h9, hl.inv.pm, ht]; rfl, q, hql, hl.near i q ht L hL hLs hm, fun d hd => hd q hql, ?_⟩
  rw [h8 i hi]
  unfold Tags.out
  rw [ht]
  simp only [superimpose_eq_combined]

/-- C42, partial. A lethal cell whose disk (the cells of the map in Euclidean range) contains no cell in range of
another lethal cell: every cell of its disk is inflated with its exact distance. Missing: overlapping disks, where the
claim fails (`C42_false`). -/
theorem C42_isolated_obstacle_partial (hc : m.Coherent) (hres : 0 < m.resolution) {ls : String}
    (hls : m.exists ls = true) (ld : String) (hn : radiusInCells radius m.resolution < 2 ^ 32 - 1) (hpop : PopOk pop)
    (hh : HypOk hyp (radiusInCells radius m.resolution)) (ho : Used hyp computer m.resolution o) (log : List Idx) :
    ∃ st', inflate pop hyp ls ld radius computer ⟨o, m, log⟩ = (.ok (), st') ∧
      ∀ L, m.Lethal ls L →
        (∀ i q, i.In m.size → m.Lethal ls q → q ≠ L →
          sqDist i L ≤ radiusInCells radius m.resolution * radiusInCells radius m.resolution →
          radiusInCells radius m.resolution * radiusInCells radius m.resolution < sqDist i q) →
        ∀ i v, i.In m.size → m.at ls i = .ok v →
          sqDist i L ≤ radiusInCells radius m.resolution * radiusInCells radius m.resolution →
          i ∈ st'.pushed ∧
          st'.map.at ld i = .ok (combined v (inflationCost hyp computer m.resolution i L)) := by
  obtain ⟨st', s, h1, h2, h3, h4, h5, h6, h7, hs, h8, h9, h10⟩ :=
    inflate_run hc hres hls ld hn hpop hh (Used.ready ho).1 (.inr (Used.ready ho)) log
  obtain ⟨hl, hq⟩ := Loop.run (size := m.size) (s := s) hh hpop
  refine ⟨st', h1, ?_⟩
  rintro L ⟨hL, hLat⟩ hiso i v hi hv hd
  rw [hs i hi] at hv; cases hv
  rw [hs L hL] at hLat
  have hLs : s L = LETHAL_OBSTACLE := by injection hLat
  have ht := hl.isolated hq hL hLs (fun c hc hcd q hqin hqs hne => hiso c q hc ⟨hqin, by rw [hs q hqin, hqs]⟩ hne hcd)
    _ hi rfl hd
  refine ⟨by rw [h9, hl.inv.pm, ht]; rfl, ?_⟩
  rw [h8 i hi]
  unfold Tags.out
  rw [ht]
  simp only [superimpose_eq_combined]

/-- C43, partial. After any calls with the same computer on maps of the same resolution, and after any calls at all
if the last one had another radius in cells, a call does to a map exactly what a call of a new object does. Missing:
the other histories, where the claim fails (`C43_false`). -/
theorem C43_reuse_partial (hc : m.Coherent) (hres : 0 < m.resolution) {ls : String}
    (hls : m.exists ls = true) (ld : String) (hn : radiusInCells radius m.resolution < 2 ^ 32 - 1) (hpop : PopOk pop)
    (hh : HypOk hyp (radiusInCells radius m.resolution))
    (ho : Used hyp computer m.resolution o ∨
      ∃ o₀ pop₀ ls₀ ld₀ radius₀ computer₀ log₀ m₀ st₀, UsedAny hyp o₀ ∧ 0 < m₀.resolution ∧
        inflate pop₀ hyp ls₀ ld₀ radius₀ computer₀ ⟨o₀, m₀, log₀⟩ = (.ok (), st₀) ∧ st₀.obj = o ∧
        radiusInCells radius₀ m₀.resolution ≠ radiusInCells radius m.resolution) (log : List Idx) :
    ∃ st' st'', inflate pop hyp ls ld radius computer ⟨o, m, log⟩ = (.ok (), st') ∧
      inflate pop hyp ls ld radius computer ⟨Inflater.new, m, []⟩ = (.ok (), st'') ∧
      SameGeometry st''.map st'.map ∧ SameMeta st''.map st'.map ∧ st'.map.layers = st''.map.layers ∧
      (∀ l, l ≠ ld → st'.map.get l = st''.map.get l) ∧
      (∀ i, i.In m.size → st'.map.at ld i = st''.map.at ld i) ∧ st'.pushed = st''.pushed := by
  have hq : o.queue = [] ∧ (o.cellRadius ≠ radiusInCells radius m.resolution ∨ Ready hyp computer m.resolution o) := by
    rcases ho with ho | ⟨o₀, pop₀, ls₀, ld₀, radius₀, computer₀, log₀, m₀, st₀, hu, hr, he, rfl, hne⟩
    · exact ⟨(Used.ready ho).1, .inr (Used.ready ho)⟩
    · exact ⟨UsedAny.queue (UsedAny.call hu _ _ _ _ _ _ _ he), .inl (by rw [inflate_cellRadius hr he]; exact hne)⟩
  obtain ⟨st', s, h1, h2, h3, h4, h5, h6, h7, hs, h8, h9, h10⟩ := inflate_run hc hres hls ld hn hpop hh hq.1 hq.2 log
  obtain ⟨st'', s', g1, g2, g3, g4, g5, g6, g7, gs, g8, g9, g10⟩ := inflate_run (o := Inflater.new) hc hres hls ld hn
    hpop hh rfl (.inr (Ready.new hyp computer m.resolution)) []
  have hss : ∀ i, i.In m.size → s i = s' i := by
    intro i hi
    have := (hs i hi).symm.trans (gs i hi)
    injection this
  have hrun : Tags.run pop hyp (radiusInCells radius m.resolution) m.size s =
      Tags.run pop hyp (radiusInCells radius m.resolution) m.size s' := Tags.run_congr hss
  refine ⟨st', st'', h1, g1, ?_, ?_, by rw [h4, g4], ?_, ?_, by rw [h9, g9, hrun]⟩
  · exact ⟨h2.length.trans g2.length.symm, h2.resolution.trans g2.resolution.symm, h2.position.trans g2.position.symm,
      h2.size.trans g2.size.symm, h2.startIndex.trans g2.startIndex.symm⟩
  · exact ⟨h3.frameId.trans g3.frameId.symm, h3.timestamp.trans g3.timestamp.symm,
      h3.basicLayers.trans g3.basicLayers.symm⟩
  · intro l hl; exact get_congr ((h5 l hl).trans (g5 l hl).symm)
  · intro i hi
    rw [h8 i hi, g8 i hi, hrun]
    unfold Tags.out
    rw [hss i hi]

/-- C43 is false: after a call with the same radius in cells, whatever the computer and the resolution were then, a
call with another computer ignores the new computer and does exactly what it would have done with any other one. -/
theorem C43_stale_costs (hres : 0 < m.resolution) {ls₀ ld₀ : String} {pop₀ : Pop K} {radius₀ : K}
    {computer₀ : K → Cost} {m₀ : CostMap K} {log₀ : List Idx} {o₀ : Inflater K} {st₀ : Inflation K}
    (hres₀ : 0 < m₀.resolution)
    (h0 : inflate pop₀ hyp ls₀ ld₀ radius₀ computer₀ ⟨o₀, m₀, log₀⟩ = (.ok (), st₀))
    (hr : radiusInCells radius₀ m₀.resolution = radiusInCells radius m.resolution)
    (ls ld : String) (computer₁ computer₂ : K → Cost) (log : List Idx) :
    inflate pop hyp ls ld radius computer₁ ⟨st₀.obj, m, log⟩ =
      inflate pop hyp ls ld radius computer₂ ⟨st₀.obj, m, log⟩ := by
  have hrad := (inflate_cellRadius hres₀ h0).trans hr
  exact inflate_computer hres hrad ls ld computer₁ computer₂ log

/-- C44. Inflating a layer in place leaves in it exactly what a call with a separate destination layer writes there;
the cells are pushed in the same order. -/
theorem C44_in_place (hc : m.Coherent) (hres : 0 < m.resolution) {ls : String}
    (hls : m.exists ls = true) (ld : String) (hn : radiusInCells radius m.resolution < 2 ^ 32 - 1) (hpop : PopOk pop)
    (hh : HypOk hyp (radiusInCells radius m.resolution)) (ho : Used hyp computer m.resolution o) (log : List Idx) :
    ∃ st' st'', inflate pop hyp ls ls radius computer ⟨o, m, log⟩ = (.ok (), st') ∧
      inflate pop hyp ls ld radius computer ⟨o, m, log⟩ = (.ok (), st'') ∧
      (∀ i, i.In m.size → st'.map.at ls i = st''.map.at ld i) ∧ st'.pushed = st''.pushed := by
  obtain ⟨st', s, h1, h2, h3, h4, h5, h6, h7, hs, h8, h9, h10⟩ :=
    inflate_run hc hres hls ls hn hpop hh (Used.ready ho).1 (.inr (Used.ready ho)) log
  obtain ⟨st'', s', g1, g2, g3, g4, g5, g6, g7, gs, g8, g9, g10⟩ :=
    inflate_run hc hres hls ld hn hpop hh (Used.ready ho).1 (.inr (Used.ready ho)) log
  have hss : ∀ i, i.In m.size → s i = s' i := by
    intro i hi
    have := (hs i hi).symm.trans (gs i hi)
    injection this
  have hrun : Tags.run pop hyp (radiusInCells radius m.resolution) m.size s =
      Tags.run pop hyp (radiusInCells radius m.resolution) m.size s' := Tags.run_congr hss
  refine ⟨st', st'', h1, g1, ?_, by rw [h9, g9, hrun]⟩
  intro i hi
  rw [h8 i hi, g8 i hi, hrun]
  unfold Tags.out
  rw [hss i hi]

/-- C04 for inflation: a missing source layer throws `std::out_of_range` and changes neither the map nor the object. -/
theorem C04_inflate_missing_layer (pop : Pop K) (hyp : Nat → Nat → K) (computer : K → Cost) (radius : K)
    (m : CostMap K) (o : Inflater K) {ls : String} (hls : m.exists ls = false) (ld : String) (log : List Idx) :
    ∃ st', inflate pop hyp ls ld radius computer ⟨o, m, log⟩ = (.thrown .outOfRange, st') ∧ st'.map = m ∧
      st'.obj = o := by
  have hd : m.data ls = none := by
    unfold CostMap.exists at hls
    cases h : m.data ls with
    | none => rfl
    | some _ => rw [h] at hls; cases hls
  refine ⟨⟨o, m, []⟩, ?_, rfl, rfl⟩
  unfold inflate
  rw [Act.bind_ok (show (Act.modify fun st : Inflation K => { st with pushed := [] }) ⟨o, m, log⟩ =
      (.ok (), ⟨o, m, []⟩) from rfl)]
  simp only [Act.bind, Act.read, CostMap.get, hd]

end

/-! ## Witnesses -/

namespace Demo

theorem spot_lethal : spot.Lethal "s" ⟨1, 1⟩ := ⟨by decide +kernel, by decide +kernel⟩

/-- A used object, not a new one. -/
theorem spot_used : Used hyp falling spot.resolution
    (inflate pop hyp "s" "t" 2 falling ⟨Inflater.new, spot, []⟩).2.obj :=
  .call .new pop "s" "t" 2 spot [] rfl
    (Prod.ext (by decide +kernel) rfl)

theorem spot_res : (0 : ℚ) < spot.resolution := by decide +kernel
theorem spot_radius : radiusInCells (3 / 2) spot.resolution = 2 := by decide +kernel

end Demo

open Demo in
example := C38_only_near_obstacles (radius := 3 / 2) spot_coherent spot_res (ls := "s")
  (by decide +kernel) "t" (by rw [spot_radius]; decide) pop_ok (hyp_ok _) spot_used []
open Demo in
example := C39_never_hides_an_obstacle (radius := 3 / 2) spot_coherent spot_res (ls := "s")
  (by decide +kernel) "s" (by rw [spot_radius]; decide) pop_ok (hyp_ok _) spot_used []
open Demo in
example := C40_terminates_in_bounds (radius := 3 / 2) spot_coherent spot_res (ls := "s")
  (by decide +kernel) "t" (by rw [spot_radius]; decide) pop_ok (hyp_ok _) spot_used []
open Demo in
/-- The Manhattan corner of the map is inflated from the only obstacle. -/
example : ∃ st', inflate pop hyp "s" "t" (3 / 2) falling ⟨Inflater.new, spot, []⟩ = (.ok (), st') ∧
    (⟨2, 2⟩ : Idx) ∈ st'.pushed := by
  obtain ⟨st', h, h'⟩ := C41_manhattan_range (radius := 3 / 2) spot_coherent spot_res (ls := "s")
    (by decide +kernel) "t" (by rw [spot_radius]; decide) pop_ok (hyp_ok _) (.new (computer := falling)) []
  exact ⟨st', h, (h' ⟨2, 2⟩ 40 ⟨1, 1⟩ (by decide +kernel) (by decide +kernel) spot_lethal
    (by rw [spot_radius]; decide)).1⟩
open Demo in
/-- Its cost, and that of the unknown cell, is that of the distance to the obstacle. -/
example : ∃ st', inflate pop hyp "s" "t" (3 / 2) falling ⟨Inflater.new, spot, []⟩ = (.ok (), st') ∧
    st'.map.at "t" ⟨0, 0⟩ = .ok 255 ∧ st'.map.at "t" ⟨0, 1⟩ = .ok 253 ∧ st'.map.at "t" ⟨2, 2⟩ = .ok 40 := by
  refine ⟨_, Prod.ext (by decide +kernel) rfl, ?_, ?_, ?_⟩ <;> decide +kernel
open Demo in
example : ∃ st', inflate pop hyp "s" "t" (3 / 2) falling ⟨Inflater.new, spot, []⟩ = (.ok (), st') ∧
    (⟨0, 0⟩ : Idx) ∈ st'.pushed := by
  obtain ⟨st', h, h'⟩ := C42_isolated_obstacle_partial (radius := 3 / 2) spot_coherent spot_res
    (ls := "s") (by decide +kernel) "t" (by rw [spot_radius]; decide) pop_ok (hyp_ok _) (.new (computer := falling)) []
  refine ⟨st', h, (h' ⟨1, 1⟩ spot_lethal ?_ ⟨0, 0⟩ 255 (by decide +kernel) (by decide +kernel)
    (by rw [spot_radius]; decide)).1⟩
  rintro i q - ⟨hq, hqs⟩ hne
  refine absurd ?_ hne
  have key : ∀ q ∈ colMajor 3 3, spot.at "s" q = .ok LETHAL_OBSTACLE → q = ⟨1, 1⟩ := by decide +kernel
  refine key q (mem_colMajor.mpr ?_) hqs
  have : spot.size = ⟨3, 3⟩ := by decide +kernel
  rw [this] at hq
  unfold Idx.In at hq
  simp only at hq
  omega
open Demo in
example := C43_reuse_partial (radius := 3 / 2) spot_coherent spot_res (ls := "s")
  (by decide +kernel) "t" (by rw [spot_radius]; decide) pop_ok (hyp_ok _) (.inl spot_used) []
open Demo in
example := C44_in_place (radius := 3 / 2) spot_coherent spot_res (ls := "s")
  (by decide +kernel) "t" (by rw [spot_radius]; decide) pop_ok (hyp_ok _) spot_used []
example := C04_inflate_missing_layer Demo.pop Demo.hyp Demo.falling 1 Demo.spot Inflater.new (ls := "z")
  (by decide +kernel) "t" []

/-- C42 is false. On this map, with radius 5 and whatever queue and computer, the cell `(3, 0)` is not inflated although
the lethal cell `(0, 4)` is exactly 5 cells away. -/
theorem C42_false :
    ∃ m : CostMap ℚ, m.Coherent ∧ m.resolution = 1 ∧ m.Lethal "s" ⟨0, 4⟩ ∧ (⟨3, 0⟩ : Idx).In m.size ∧
      m.at "s" ⟨3, 0⟩ = .ok FREE_SPACE ∧ sqDist ⟨3, 0⟩ ⟨0, 4⟩ ≤ 5 * 5 ∧
      ∀ (pop : Pop ℚ) (hyp : Nat → Nat → ℚ) (computer : ℚ → Cost), PopOk pop → HypOk hyp 5 →
        ∃ st', inflate pop hyp "s" "t" 5 computer ⟨Inflater.new, m, []⟩ = (.ok (), st') ∧
          (⟨3, 0⟩ : Idx) ∉ st'.pushed ∧ st'.map.at "t" ⟨3, 0⟩ = .ok FREE_SPACE := by
  refine ⟨Demo.grid 4 6 fun i j => if (i = 0 ∧ j = 4) ∨ (i = 2 ∧ j = 5) then 254 else 0, Demo.grid_coherent _ _ _,
    by decide +kernel, ⟨by decide +kernel, by decide +kernel⟩, by decide +kernel, by decide +kernel, by decide, ?_⟩
  intro pop hyp computer hpop hh
  have hm : ∃ m, m = Demo.grid 4 6 fun i j => if (i = 0 ∧ j = 4) ∨ (i = 2 ∧ j = 5) then 254 else 0 := ⟨_, rfl⟩
  obtain ⟨m, hm⟩ := hm
  rw [← hm]
  have hcoh : m.Coherent := hm ▸ Demo.grid_coherent _ _ _
  have hres : m.resolution = 1 := hm ▸ by decide +kernel
  have hsize : m.size = gapSize := hm ▸ by decide +kernel
  have hex : m.exists "s" = true := hm ▸ by decide +kernel
  have hrad : radiusInCells 5 m.resolution = 5 := by rw [hres]; decide +kernel
  obtain ⟨st', s, h1, -, -, -, -, -, -, hs, h8, h9, -⟩ := inflate_run (o := Inflater.new) (computer := computer)
    (radius := 5) hcoh (by rw [hres]; decide +kernel) hex "t" (by rw [hrad]; decide) hpop (by rw [hrad]; exact hh) rfl
    (.inr (Ready.new _ _ _)) []
  rw [hrad, hsize] at h8 h9
  have hcells : ∀ i ∈ colMajor 4 6, m.at "s" i = .ok (if i = gapA ∨ i = gapB then 254 else 0) := by
    rw [hm]; decide +kernel
  have hsv : ∀ i, i.In gapSize → s i = if i = gapA ∨ i = gapB then 254 else 0 := by
    intro i hi
    have h := hs i (by rw [hsize]; exact hi)
    rw [hcells i (mem_cells_of_in hi)] at h
    injection h with h
    exact h.symm
  have ht := gap_run (s := s) hh hpop (by
    intro i hi
    rw [hsv i hi]
    split
    · simp [*, LETHAL_OBSTACLE]
    · simp only [*, iff_false]; decide)
  obtain ⟨hl, -⟩ := Loop.run (size := gapSize) (s := s) hh hpop
  refine ⟨st', h1, ?_, ?_⟩
  · rw [h9, hl.inv.pm, ht]; simp
  · rw [h8 _ (by decide)]
    unfold Tags.out
    rw [ht]
    simp only
    rw [hsv _ (by decide)]
    rfl

/-- C43 is false: a call with computer 100 after one with computer 200 and the same radius still writes 200. -/
theorem C43_false :
    (inflate Demo.pop Demo.hyp "s" "t" 1 (fun _ => 100) ⟨Inflater.new, Demo.spot, []⟩).2.map.at "t" ⟨1, 0⟩ = .ok 100 ∧
    (inflate Demo.pop Demo.hyp "s" "t" 1 (fun _ => 100)
      ⟨(inflate Demo.pop Demo.hyp "s" "t" 1 (fun _ => 200) ⟨Inflater.new, Demo.spot, []⟩).2.obj, Demo.spot, []⟩).2.map.at
      "t" ⟨1, 0⟩ = .ok 200 := by
  constructor <;> decide +kernel

example := C43_stale_costs (m := Demo.spot) (m₀ := Demo.spot) (o₀ := Inflater.new) (hyp := Demo.hyp) (radius := 1) (pop := Demo.pop)
  Demo.spot_res (ls₀ := "s") (ld₀ := "t") (pop₀ := Demo.pop) (radius₀ := 1) (computer₀ := fun _ => 200) (log₀ := [])
  Demo.spot_res (Prod.ext (by decide +kernel) rfl) rfl "s" "t" (fun _ => 100) (fun _ => 7) []

end CostMapModel

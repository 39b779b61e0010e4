import Verif.Spec.Programs
import Verif.Props.Nodes
import Verif.Props.Load
import Verif.Props.Deflate

/-! # Lemmas on the demo programs -/

set_option linter.unusedSectionVars false

namespace CostMapModel
open CostMap Inflation
variable {K : Type} [Field K] [LinearOrder K] [IsStrictOrderedRing K] [FloorRing K]

namespace Inflations

theorem onMap_ok {α : Type} {f : Act (CostMap K) α} {s : InflationsState K} {a : α} {m' : CostMap K} (h : f s.map = (.ok a, m')) :
    onMap f s = (.ok a, { s with map := m' }) := by
  unfold onMap; rw [h]

theorem rate_nonneg {rf : K → K} (h : RoundOk rf) : 0 ≤ rf 5 := by
  rw [← h.zero]; exact h.mono (by norm_num)

theorem computer_spec {env : InflationsEnv K} (hf : RoundOk env.rf) (hd : RoundOk env.rd) (hd' : env.rd 252 = 252)
    (he : ExpOk env.exp) :
    (∀ d, rosCost env.rf env.rd env.exp (env.rf (3 / 10)) (env.rf 5) d = .ok (computer env d)) ∧
    computer env 0 = LETHAL_OBSTACLE ∧ ∀ d, 0 < d → (computer env d).toNat ≤ 253 := by
  obtain ⟨h1, h2, h3, -⟩ := C45_ros_cost_curve hf hd hd' he (env.rf (3 / 10)) (rate_nonneg hf)
  have key : ∀ d c, rosCost env.rf env.rd env.exp (env.rf (3 / 10)) (env.rf 5) d = .ok c → computer env d = c := by
    intro d c h; unfold computer; rw [h]
  refine ⟨fun d => ?_, key _ _ h1, fun d h0 => ?_⟩
  · rcases lt_trichotomy d 0 with h | h | h
    · have h3 : 0 ≤ env.rf (3 / 10) := by rw [← hf.zero]; exact hf.mono (by norm_num)
      have : rosCost env.rf env.rd env.exp (env.rf (3 / 10)) (env.rf 5) d = .ok INSCRIBED_OBSTACLE := by
        unfold rosCost; rw [if_neg h.ne, if_pos (by linarith)]
      rw [key _ _ this, this]
    · subst h; rw [key _ _ h1, h1]
    · rcases le_or_gt d (env.rf (3 / 10)) with h' | h'
      · rw [key _ _ (h2 d h h'), h2 d h h']
      · obtain ⟨c, hc, -⟩ := h3 d h h'
        rw [key _ _ hc, hc]
  · rcases le_or_gt d (env.rf (3 / 10)) with h' | h'
    · rw [key _ _ (h2 d h0 h')]; decide
    · obtain ⟨c, hc, hc'⟩ := h3 d h0 h'
      rw [key _ _ hc]; omega

end Inflations

theorem occupancyOf_lethal : ∀ c : Cost, occupancyOf c = 100 ↔ c = LETHAL_OBSTACLE := forall_cost (by decide +kernel)

theorem occupancyOf_unknown : ∀ c : Cost, occupancyOf c = -1 ↔ c = NO_INFORMATION := forall_cost (by decide +kernel)

theorem occupancyOf_known : ∀ c : Cost, 0 ≤ occupancyOf c ↔ c ≠ NO_INFORMATION := forall_cost (by decide +kernel)

theorem occupancyOf_mono {c c' : Cost} (h : c ≤ c') (h' : c' ≠ NO_INFORMATION) : occupancyOf c ≤ occupancyOf c' := by
  have e : ∀ c : Cost, c.toNat ≤ 252 → occupancyOf c = (98 * c.toNat / 252 : Nat) := forall_cost (by decide +kernel)
  have top : ∀ c : Cost, occupancyOf c ≤ 100 ∧ (c.toNat ≤ 253 → occupancyOf c ≤ 99) ∧ (c.toNat = 254 → occupancyOf c = 100) ∧
    (c.toNat = 253 → occupancyOf c = 99) := forall_cost (by decide +kernel)
  have hn : c'.toNat ≠ 255 := by
    intro hc; exact h' (UInt8.toNat_inj.1 hc)
  have hlt := c'.toNat_lt
  rw [UInt8.le_iff_toNat_le] at h
  rcases (by omega : c'.toNat = 254 ∨ c'.toNat = 253 ∨ c'.toNat ≤ 252) with k | k | k
  · rw [(top c').2.2.1 k]; exact (top c).1
  · rw [(top c').2.2.2 k]; exact (top c).2.1 (by omega)
  · rw [e c' k, e c (by omega)]
    have : 98 * c.toNat / 252 ≤ 98 * c'.toNat / 252 := Nat.div_le_div_right (by omega)
    exact_mod_cast this

theorem deflated_value : ∀ u : Cost, occupancyOf (if LETHAL_OBSTACLE ≤ u then u else FREE_SPACE) =
    if occupancyOf u = 100 ∨ occupancyOf u = -1 then occupancyOf u else 0 := forall_cost (by decide +kernel)

theorem combined_lethal {v c : Cost} (hc : c.toNat ≤ 254) (h : c = LETHAL_OBSTACLE → v = LETHAL_OBSTACLE) :
    combined v c = LETHAL_OBSTACLE ↔ v = LETHAL_OBSTACLE := by
  unfold combined
  constructor
  · intro e
    split at e
    · split at e
      · exact h e
      · exact e
    · split at e
      · exact e
      · exact h e
  · rintro rfl
    rw [if_neg (by decide), if_pos (by rw [UInt8.le_iff_toNat_le]; exact hc)]

theorem combined_ne_unknown {v c : Cost} (hc : c.toNat ≤ 254) (hv : v ≠ NO_INFORMATION) : combined v c ≠ NO_INFORMATION := by
  unfold combined
  rw [if_neg hv]
  split
  · exact hv
  · rintro rfl; exact absurd hc (by decide)

theorem at_of_get {m m' : CostMap K} {l : String} (h : m'.get l = m.get l) (i : Idx) : m'.at l i = m.at l i := by
  unfold CostMap.get at h
  unfold CostMap.at
  cases h1 : m'.data l <;> cases h2 : m.data l <;> rw [h1, h2] at h <;> simp_all

theorem exists_of_get {m m' : CostMap K} {l : String} (h : m'.get l = m.get l) : m'.exists l = m.exists l := by
  unfold CostMap.get at h
  unfold CostMap.exists
  cases h1 : m'.data l <;> cases h2 : m.data l <;> rw [h1, h2] at h <;> simp_all

/-- The cost the computer gives to a cell: lethal exactly at the obstacle itself. -/
theorem inflationCost_lethal {env : InflationsEnv K} {n : Nat} (ok : env.Ok n) {r : K} (hr : 0 < r) {i q : Idx}
    (hd : sqDist i q ≤ n * n) :
    (inflationCost env.hyp (Inflations.computer env) r i q).toNat ≤ 254 ∧
    (inflationCost env.hyp (Inflations.computer env) r i q = LETHAL_OBSTACLE → i = q) := by
  obtain ⟨-, c0, c1⟩ := Inflations.computer_spec ok.float ok.double ok.double252 ok.exp
  unfold sqDist at hd
  unfold inflationCost
  obtain ⟨dx, hx⟩ : ∃ dx, dx = (i.x - q.x).natAbs := ⟨_, rfl⟩
  obtain ⟨dy, hy⟩ : ∃ dy, dy = (i.y - q.y).natAbs := ⟨_, rfl⟩
  rw [← hx, ← hy] at hd ⊢
  have hdx : dx ≤ n := by
    by_contra hc
    have : n * n < dx * dx := Nat.mul_lt_mul'' (by omega) (by omega)
    omega
  have hdy : dy ≤ n := by
    by_contra hc
    have : n * n < dy * dy := Nat.mul_lt_mul'' (by omega) (by omega)
    omega
  by_cases hz : dx = 0 ∧ dy = 0
  · obtain ⟨zx, zy⟩ := hz
    refine ⟨?_, fun _ => ?_⟩
    · rw [zx, zy, ok.hyp0, mul_zero, c0]; decide
    · ext <;> omega
  · have h0 : 0 < env.hyp dx dy := by
      by_contra hc
      have := (ok.hyp dx dy 0 (by omega) (by omega) (by omega)).1 (by push_cast; exact not_lt.1 hc)
      have h1 : dx * dx = 0 := by omega
      have h2 : dy * dy = 0 := by omega
      exact hz ⟨by simpa using h1, by simpa using h2⟩
    have := c1 _ (mul_pos hr h0)
    refine ⟨by omega, fun hc => ?_⟩
    rw [hc] at this
    exact absurd this (by decide)

end CostMapModel

namespace CostMapModel
open CostMap
variable {K : Type} [Field K] [LinearOrder K] [IsStrictOrderedRing K] [FloorRing K]

/-! ## from_ros_costmaps -/

/-- Converting a whole costmap does not set the time. -/
theorem fromCostmap2DROS_timestamp {c : Costmap2DROS K} (hc : c.costmap.Ok) {m m' : CostMap K} (hm : m.Coherent) {l : String} {b : Bool}
    (h : fromCostmap2DROS c l m = (.ok b, m')) : m'.timestamp = m.timestamp := by
  obtain ⟨m1, e1, c1, g1, s1, z1, r1, p1, l1, ly1, ex1, t1⟩ := setGeometry_whole hc.res hc.size_x hc.size_y
    (⟨c.costmap.origin.x + 1 / 2 * (c.costmap.sizeX * c.costmap.resolution),
      c.costmap.origin.y + 1 / 2 * (c.costmap.sizeY * c.costmap.resolution)⟩ : Vec K) hm
  obtain ⟨m2, e2, c2, sg, sm, ly2, -, v2⟩ := addFromCostmap2D_run hc.costs (m := m1.setFrameId c.globalFrame)
    ⟨c1.nodup, c1.mem_iff, c1.dims⟩ z1 s1 l
  unfold fromCostmap2DROS at h
  rw [Act.bind_ok (show initFromCostmap2D c m = (.ok (), m1.setFrameId c.globalFrame) by
      unfold initFromCostmap2D; rw [Act.bind_ok e1]; rfl), e2] at h
  cases h
  exact sm.timestamp.trans t1.timestamp

/-- A converted map that shows its costmap. -/
structure Converted (m : CostMap K) (c : Costmap2DROS K) (nx ny : Nat) (stamp : Nat) : Prop where
  coherent : m.Coherent
  geo : m.Geo
  start : m.startIndex = 0
  layers : m.layers = ["obstacle_costs"]
  resolution : m.resolution = c.costmap.resolution
  size : m.size = ⟨nx, ny⟩
  frame : m.frameId = c.globalFrame
  time : m.timestamp = stamp
  costs : ∀ (i : Idx) (q p : Vec K), m.getPosition i = some q → InsideSquare p q m.resolution →
    ∃ v, c.costmap.costAt p = some v ∧ m.atPosition "obstacle_costs" p = .ok v

theorem empty_coherent : (CostMap.new [] : CostMap K).Coherent :=
  ⟨by simp [CostMap.new], by intro l; simp [CostMap.new], by intro l a h; simp [CostMap.new] at h⟩

namespace FromRos

theorem convert_whole {c : Costmap2DROS K} (hc : c.costmap.Ok) :
    ∃ m, convert c none = .ok m ∧ Converted m c c.costmap.sizeX c.costmap.sizeY 0 := by
  obtain ⟨m, h1, h2, h3, h4, h5, h6, -, h8, h9, h10⟩ := C64_from_ros_costmap hc (m := CostMap.new []) empty_coherent "obstacle_costs"
  refine ⟨m, by simp only [convert, h1], h2, h3, h8, by rw [h9]; rfl, h5, h6, h4, ?_, h10⟩
  exact fromCostmap2DROS_timestamp hc empty_coherent h1

theorem convert_window {c : Costmap2DROS K} (hc : c.costmap.Ok) {nx ny : Nat} (hx : 0 < nx) (hy : 0 < ny) (hw : WindowFits c nx ny)
    {geometry : Vec K} (hg : geometry = ⟨nx * c.costmap.resolution, ny * c.costmap.resolution⟩) :
    ∃ m, convert c (some geometry) = .ok m ∧ Converted m c nx ny c.now := by
  obtain ⟨rb, hrb, a1, a2, a3, a4⟩ := hw
  obtain ⟨m, h1, h2, h3, h4, h5, h6, h7, h8, -, -, h9, h10⟩ := C65_window_partial hc hrb hx hy a1 a2 a3 a4 (m := CostMap.new [])
    empty_coherent "obstacle_costs"
  subst hg
  exact ⟨m, by simp only [convert, h1], h2, h3, h8, by rw [h9]; rfl, h6, h7, h4, h5, h10⟩

theorem convert_no_pose {c : Costmap2DROS K} (h : c.robot = none) (geometry : Vec K) :
    convert c (some geometry) = .ok (CostMap.new []) := by
  simp only [convert, C65_no_pose h]

end FromRos

theorem Converted.publish {rf : K → K} {m : CostMap K} {c : Costmap2DROS K} {nx ny stamp : Nat} (h : Converted m c nx ny stamp)
    (hrf : rf c.costmap.resolution = c.costmap.resolution) (ht : stamp < 2 ^ 32 * 1000000000) (old : List Int) :
    ∃ g, m.toOccupancyGrid rf "obstacle_costs" old = .ok g ∧ Published g c nx ny stamp := by
  have hl : m.exists "obstacle_costs" = true := (h.coherent.mem_iff _).1 (by rw [h.layers]; simp)
  obtain ⟨g, e1, e2, e3, e4, e5, e6, e7, -⟩ := C51_header rf h.geo h.coherent hl (by rw [h.time]; exact ht) old
  obtain ⟨g', e1', e8⟩ := C51_placed_by_position_partial rf h.geo h.coherent h.start hl (by rw [h.time]; exact ht)
    (by rw [h.resolution]; exact hrf) old
  rw [e1] at e1'; cases e1'
  have hr : g.resolution = m.resolution := by rw [e6, h.resolution, hrf]
  refine ⟨g, e1, e2.trans h.frame, e3.trans h.time, by rw [e4, h.size], by rw [e5, h.size], hr.trans h.resolution, ?_⟩
  rintro p ⟨col, row, ⟨c0, c1⟩, ⟨r0, r1⟩, ⟨x0, x1⟩, y0, y1⟩
  have hi : (⟨m.size.x - 1 - col, m.size.y - 1 - row⟩ : Idx).In m.size := by
    rw [e4] at c1; rw [e5] at r1
    refine ⟨?_, ?_, ?_, ?_⟩ <;> simp only <;> omega
  have hq := getPosition_eq hi
  rw [h.start] at hq
  have hu : unwrapIdx (⟨m.size.x - 1 - col, m.size.y - 1 - row⟩ : Idx) m.size 0 = ⟨m.size.x - 1 - col, m.size.y - 1 - row⟩ := by
    simp [unwrapIdx]
  rw [hu] at hq
  have hin : InsideSquare p (m.center ⟨m.size.x - 1 - col, m.size.y - 1 - row⟩) m.resolution := by
    rw [e7, hr] at x0 x1 y0 y1
    simp only at x0 x1 y0 y1
    rw [h.geo.len_x] at x0 x1
    rw [h.geo.len_y] at y0 y1
    simp only [InsideSquare, center]
    rw [h.geo.len_x, h.geo.len_y]
    push_cast
    refine ⟨⟨?_, ?_⟩, ?_, ?_⟩ <;> nlinarith
  obtain ⟨v, v1, v2⟩ := h.costs _ _ _ hq hin
  obtain ⟨v', v3, v4⟩ := e8 _ _ _ hq hin
  rw [v2] at v3; cases v3
  exact ⟨v, v1, v4⟩

namespace FromRos

theorem publishAll_cons {rf : K → K} {m : CostMap K} {ms : List (CostMap K)} {l : String} {g : OccupancyGrid K}
    {published : List (OccupancyGrid K)} (hl : m.layers = [l])
    (hg : m.toOccupancyGrid rf l ((published.getLast?.map OccupancyGrid.data).getD []) = .ok g) :
    publishAll rf (m :: ms) published = publishAll rf ms (published ++ [g]) := by
  rw [publishAll]
  simp only [Act.bind, Act.read, hl, List.head?_cons, Res.ofOption_some, hg, Act.modify]

theorem publishAll_empty {rf : K → K} {m : CostMap K} {ms : List (CostMap K)} {published : List (OccupancyGrid K)}
    (hl : m.layers = []) : publishAll rf (m :: ms) published = (.ub, published) := by
  unfold publishAll
  simp only [Act.bind, Act.read, hl, List.head?_nil, Res.ofOption_none]

theorem convertAll_five {a b c d e : Costmap2DROS K} {m1 m2 m3 m4 m5 : CostMap K} (h1 : convert a none = .ok m1)
    (h2 : convert b none = .ok m2) (h3 : convert c (some ⟨3, 3⟩) = .ok m3) (h4 : convert d (some ⟨3, 3⟩) = .ok m4)
    (h5 : convert e (some ⟨5 / 2, 5 / 2⟩) = .ok m5) : convertAll (requests a b c d e) = .ok [m1, m2, m3, m4, m5] := by
  simp only [requests, convertAll, h1, h2, h3, h4, h5, Res.bind_ok]

theorem main_eq {rf : K → K} {a b c d e : Costmap2DROS K} {ms : List (CostMap K)}
    (h : convertAll (requests a b c d e) = .ok ms) (s : List (OccupancyGrid K)) :
    main rf a b c d e s = Act.bind (publishAll rf ms) (fun _ => Act.pure 0) s := by
  unfold main
  simp only [Act.bind, Act.read, h]

end FromRos
end CostMapModel

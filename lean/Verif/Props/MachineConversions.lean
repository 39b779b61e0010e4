import Verif.Model.MachineConversions
import Verif.Props.CostmapHistory
import Verif.Props.RoundedConversions
import Verif.Props.Nodes

/-!
# Occupancy grids, the service and its relay on the machine: C108
-/

set_option linter.unusedSectionVars false

namespace CostMapModel
open CostMap

theorem resized_resized (d : List Int) (n : Nat) : resized (resized d n) n = resized d n := by
  have h : (resized d n).length = n := by
    unfold resized
    rw [List.length_append, List.length_take, List.length_replicate]
    omega
  show (resized d n).take n ++ List.replicate (n - (resized d n).length) 0 = _
  rw [h, Nat.sub_self, List.replicate_zero, List.append_nil, List.take_of_length_le h.le]

theorem forEach_congr_list {σ α : Type} {f g : α → Act σ Unit} : ∀ {xs : List α}, (∀ a ∈ xs, ∀ s, f a s = g a s) →
    ∀ s : σ, Act.forEach f xs s = Act.forEach g xs s
  | [], _, _ => rfl
  | a :: xs, h, s => by
    show Act.bind (f a) (fun _ => Act.forEach f xs) s = Act.bind (g a) (fun _ => Act.forEach g xs) s
    unfold Act.bind
    rw [h a (by simp) s]
    rcases g a s with ⟨r, s'⟩
    cases r with
    | ok u => exact forEach_congr_list (fun b hb => h b (by simp [hb])) s'
    | _ => rfl

section
variable {K : Type} [Field K] [LinearOrder K] [IsStrictOrderedRing K] [FloorRing K]

/-- The linear index of a cell of a map of less than `2^31` cells. -/
theorem linearIdxI_eq {i size : Idx} (hi : i.In size) (hn : size.x * size.y < 2 ^ 31) : linearIdxI i size = some (linearIdx i size) := by
  obtain ⟨a, b, c, d⟩ := hi
  have h1 : 0 ≤ i.y * size.x := mul_nonneg c (by omega)
  have h2 : (i.y + 1) * size.x ≤ size.y * size.x := mul_le_mul_of_nonneg_right (by omega) (by omega)
  have h3 : i.y * size.x + size.x < 2 ^ 31 := by nlinarith
  unfold linearIdxI linearIdx I32.mul I32.add
  rw [i32_eq (by omega) (by omega), Option.bind_some, i32_eq (by omega) (by omega)]

/-- C108. An occupancy grid of a map of less than `2^31` cells is on the machine what it is without bounds. -/
theorem C108_occupancy_same_partial (rd rf : K → K) {m : CostMap K} (hs : m.startIndex.In m.size) (hm : m.Small)
    (hn : m.size.x * m.size.y < 2 ^ 31) (l : String) (old : List Int) :
    m.toOccupancyGridI rd rf l old = m.toOccupancyGridRd rd rf l old := by
  have h0 : 0 ≤ m.size.x * m.size.y := mul_nonneg (by have := hs.1; have := hs.2.1; omega) (by have := hs.2.2.1; have := hs.2.2.2; omega)
  unfold toOccupancyGridI toOccupancyGridRd
  cases stampOf m.timestamp with
  | ok t =>
    dsimp only [Res.bind_ok]
    rw [show I32.mul m.size.x m.size.y = some (m.size.x * m.size.y) from i32_eq (by omega) (by omega)]
    dsimp only [Res.ofOption, Res.bind_ok]
    rw [newI_eq ⟨hs, hm⟩]
    dsimp only
    have hv : Visits CostMapIter.ops (CostMapIter.new m) _ := costMapIter_visits hs clamp1
    have e1 : ∀ d, Act.forIter CostMapIter.opsI (m.occupancyCellI l (m.size.x * m.size.y)) (m.size.x.toNat * m.size.y.toNat + 2)
        (CostMapIter.new m) d = Act.forIter CostMapIter.ops (m.occupancyCell l (m.size.x * m.size.y).toNat)
          (m.size.x.toNat * m.size.y.toNat + 2) (CostMapIter.new m) d := by
      intro d
      rw [Act.forIter_eq _ (CostMapIter.visitsI ⟨hs, hm.x, hm.y, hs⟩ hv) _ (by rw [List.length_map, rowMajor_length]; omega) d,
        Act.forIter_eq _ hv _ (by rw [List.length_map, rowMajor_length]; omega) d]
      refine forEach_congr_list (fun i hi s => ?_) d
      have hi : i.In m.size := (mem_cells hs).1 hi
      unfold occupancyCellI occupancyCell
      rw [linearIdxI_eq hi hn, Int.toNat_of_nonneg h0]
      rfl
    rw [Int.emod_eq_of_lt h0 (by omega), resized_resized, e1]
    rfl
  | _ => rfl

/-- D60. C108 without the bound is false of every map with at least `2^31` cells, which 50000 by 50000 are: the number of cells is
computed as an `int` and the outcome of the conversion is undefined. -/
theorem C108_occupancy_overflow (rd rf : K → K) {m : CostMap K} (ht : m.timestamp < 2 ^ 32 * 1000000000)
    (hn : 2 ^ 31 ≤ m.size.x * m.size.y) (l : String) (old : List Int) : m.toOccupancyGridI rd rf l old = .ub := by
  obtain ⟨s, n, e1, -⟩ := stampOf_ok ht
  unfold toOccupancyGridI
  rw [e1, Res.bind_ok, show I32.mul m.size.x m.size.y = none from i32_none (.inr (by omega))]
  rfl

/-- Reading a message whose lengths are at most `2^30` cells. -/
theorem fromMessageI_eq {rd : K → K} (hrd : DoublePrecision rd) {msg : CostMapMsg K} (hx : msg.lengthX ≤ 2 ^ 30 * msg.resolution)
    (hy : msg.lengthY ≤ 2 ^ 30 * msg.resolution) (m : CostMap K) : fromMessageI rd msg m = fromMessageRd rd msg m := by
  unfold fromMessageI fromMessageRd
  unfold Act.bind Act.modify
  dsimp only
  rw [C79_setGeometry hrd _ hx hy]

/-- C108. A map of a world, of less than `2^32` seconds and with the start of its buffer in the first 65536 rows and columns, is sent as
a message and read, on the machine: what comes back is the map, in every respect. -/
theorem C108_message_partial {w : World K} {rd : K → K} (hrd : DoublePrecision rd) {m : CostMap K} (hm : InWorld w rd m)
    (ht : m.timestamp < 2 ^ 32 * 10 ^ 9) (sx : m.startIndex.x < 2 ^ 16) (sy : m.startIndex.y < 2 ^ 16) :
    ∃ msg, m.toMessage = .ok msg ∧ msg.layers = m.layers ∧ ∀ e : CostMap K, NoLayers e → fromMessageI rd msg e = (.ok true, m) := by
  have hs := hm.small
  obtain ⟨msg, e1, e2⟩ := C95_message_round_trip_partial hrd hm.geo hm.coherent ht (by have := hs.x; omega) (by have := hs.y; omega)
    sx sy
  have f : msg.layers = m.layers ∧ msg.lengthX = m.length.x ∧ msg.lengthY = m.length.y ∧ msg.resolution = m.resolution := by
    unfold toMessage at e1
    cases h1 : stampOf m.timestamp with
    | ok t =>
      rw [h1, Res.bind_ok] at e1
      cases h2 : m.layerArrays m.layers with
      | ok d => rw [h2, Res.bind_ok] at e1; cases e1; exact ⟨rfl, rfl, rfl, rfl⟩
      | _ => rw [h2] at e1; cases e1
    | _ => rw [h1] at e1; cases e1
  obtain ⟨f0, f1, f2, f3⟩ := f
  refine ⟨msg, e1, f0, fun e he => ?_⟩
  have len : ∀ {n : Int} {L : K}, 0 < n → n ≤ 2 ^ 29 → L = rd (n * m.resolution) → L ≤ 2 ^ 30 * m.resolution := by
    intro n L h0 h1 h2
    have hr := hm.geo.res_pos
    have n0 : (0 : K) ≤ n := by exact_mod_cast h0.le
    have n1 : (n : K) ≤ 2 ^ 29 := by exact_mod_cast h1
    have e := hrd.le (n * m.resolution)
    rw [abs_of_nonneg (mul_nonneg n0 hr.le)] at e
    have := mul_le_mul_of_nonneg_right n1 hr.le
    rw [h2]
    linarith [le_abs_self (rd (n * m.resolution))]
  rw [fromMessageI_eq hrd (by rw [f1, f3]; exact len hm.geo.size_x hs.x hm.geo.len_x)
    (by rw [f2, f3]; exact len hm.geo.size_y hs.y hm.geo.len_y)]
  exact e2 e he

/-- C108. The same after any history of calls of C101. -/
theorem C108_history_message_partial {w : World K} {F : Fmt K} {rf : K → K} (hrd : DoublePrecision F.rd) (hF : IntsExact F.rd)
    (htop : 2 ^ 31 ≤ F.top) {m : CostMap K} (h : HeldI w F rf m) (ht : m.timestamp < 2 ^ 32 * 10 ^ 9)
    (sx : m.startIndex.x < 2 ^ 16) (sy : m.startIndex.y < 2 ^ 16) :
    ∃ msg, m.toMessage = .ok msg ∧ ∀ e : CostMap K, NoLayers e → fromMessageI F.rd msg e = (.ok true, m) := by
  obtain ⟨msg, h1, -, h2⟩ := C108_message_partial hrd (held_inWorld hrd hF htop h) ht sx sy
  exact ⟨msg, h1, h2⟩

/-- C108. A map of less than `2^31` cells and with the start of its buffer at zero, after any history of calls of C101, becomes an occupancy grid of the same frame, time and
size. A reader of the grid that looks up a position around the centre of a cell, exactly or in floating point, finds the translation of
the cost that the machine finds in the map there. -/
theorem C108_history_occupancy_partial {w : World K} {F : Fmt K} {rf : K → K} (hrd : DoublePrecision F.rd) (hF : IntsExact F.rd)
    (htop : 2 ^ 31 ≤ F.top) {m : CostMap K} (h : HeldI w F rf m) {l : String} (hl : m.exists l = true)
    (hs : m.startIndex = 0) (hn : m.size.x * m.size.y < 2 ^ 31) (ht : m.timestamp < 2 ^ 32 * 1000000000)
    (hrf : |rf m.resolution - m.resolution| ≤ m.resolution / 2 ^ 24) (old : List Int) :
    ∃ g, m.toOccupancyGridI F.rd rf l old = .ok g ∧ g.frameId = m.frameId ∧ stampToNSec g.stampSec g.stampNsec = m.timestamp ∧
      g.width = m.size.x ∧ g.height = m.size.y ∧
      ∀ (i : Idx) (p : Vec K), i.In m.size →
        |p.x - (m.idealCentre i).x| ≤ m.resolution / 2 - m.gridTolX → |p.y - (m.idealCentre i).y| ≤ m.resolution / 2 - m.gridTolY →
        ∃ v, m.at l i = .ok v ∧ m.atPositionI F.rd l p = .ok v ∧
          ∀ rq, DoublePrecision rq → g.valueAtRd rq p = some (occupancyOf v) := by
  have hw := held_inWorld hrd hF htop h
  rw [C108_occupancy_same_partial F.rd rf hw.geo.start hw.small hn]
  obtain ⟨g, h1, h2, h3, h4, h5, h6⟩ := C95_occupancy_partial hrd hw.geo hw.tame hw.coherent hs hl ht hrf old
  refine ⟨g, h1, h2, h3, h4, h5, fun i p hi hx hy => ?_⟩
  obtain ⟨v, v1, v2, v3⟩ := h6 i p hi hx hy
  have hin : m.isInsideRd F.rd p = true := by
    by_contra h0
    unfold atPositionRd at v2
    rw [show m.getIndexRd F.rd p = ((m.getIndexRd F.rd p).1, m.isInsideRd F.rd p) from rfl, Bool.eq_false_iff.2 h0] at v2
    cases v2
  exact ⟨v, v1, by rw [(C79_access hrd hw.geo hw.tame hw.small (C79_inside_near hrd hw.geo hw.tame hw.small hin) l 0).1]; exact v2, v3⟩

/-- The window around a robot in the world, as in C96. -/
theorem windowI_world {w : World K} {rd : K → K} (hrd : DoublePrecision rd) {c : Costmap2DROS K} (h : w.Costmap c.costmap)
    {rb geometry : Vec K} (hrb : c.robot = some rb) (hg : w.Geometry geometry c.costmap.resolution rb) (l : String) (m : CostMap K) :
    fromCostmap2DROSAtRobotPoseI rd c geometry l m = fromCostmap2DROSAtRobotPoseRd rd c geometry l m := by
  have hr := h.ok.res
  have hB : w.size ≤ 2 ^ 23 * c.costmap.resolution := w.cells.trans (by have := h.cell; nlinarith)
  have hp := h.corner; have hq := hg.centre
  have lx := hg.low_x; have ly := hg.low_y; have gx := hg.high_x; have gy := hg.high_y
  exact C107_window_same_partial hrd hr ⟨by linarith [hp.1], by linarith [hp.2]⟩
    (fun p hp' => by
      cases hrb.symm.trans hp'
      exact ⟨(abs_sub _ _).trans (by linarith [hp.1, hq.1]), (abs_sub _ _).trans (by linarith [hp.2, hq.2])⟩)
    ⟨abs_le.mpr ⟨by linarith, by linarith⟩, abs_le.mpr ⟨by linarith, by linarith⟩⟩ l m

/-- C108. The service on the machine, asked for a window around a robot in the world, of less than `2^31` cells: it answers with success,
and the message holds the map that the conversion made, whatever that returned. The relay, given the message, either publishes the
occupancy grid of the one layer or, when the conversion has not written a layer, ends with an exception; nothing is undefined. In the full
statement the relay always publishes: see `C108_false_relay`. -/
theorem C108_service_partial {w : World K} {rd rf : K → K} (hrd : DoublePrecision rd) {c : Costmap2DROS K} {lx ly : K}
    (hreq : w.Request rd c lx ly) :
    ∃ b m msg, fromCostmap2DROSAtRobotPoseI rd c ⟨lx, ly⟩ "obstacle_costs" (CostMap.new []) = (.ok b, m) ∧ InWorld w rd m ∧
      serviceCallbackI rd c lx ly = .ok (true, msg) ∧ (∀ e : CostMap K, NoLayers e → fromMessageI rd msg e = (.ok true, m)) ∧
      ((b = true ∧ m.layers = ["obstacle_costs"] ∧ ∃ g, m.toOccupancyGridRd rd rf "obstacle_costs" [] = .ok g ∧
          ∀ s : Relay K, Relay.stepI rd rf (some msg) s = (.ok (), ⟨"obstacle_costs", s.published ++ [g]⟩)) ∨
       (m.layers = [] ∧ ∀ s : Relay K, Relay.stepI rd rf (some msg) s = (.thrown .outOfRange, s))) := by
  obtain ⟨h, ⟨rb, hrb, hg⟩, hn, ht⟩ := hreq
  have hnew := new_coherent (K := K) (ls := []) (by simp)
  obtain ⟨b1, m1, e1, h1⟩ := fromCostmapAtRobotI_safe hrd h (geometry := ⟨lx, ly⟩) (fun p hp => by cases hrb.symm.trans hp; exact hg) hnew
    "obstacle_costs"
  have h1 : InWorld w rd m1 := h1.resolve_left fun h => by rw [hrb] at h; cases h.1
  have hr := h.ok.res
  have hB : w.size ≤ 2 ^ 23 * c.costmap.resolution := w.cells.trans (by have := h.cell; nlinarith)
  have l1 := hg.low_x; have l2 := hg.low_y; have gx := hg.high_x; have gy := hg.high_y
  obtain ⟨x1, x2⟩ := cells_in hrd (n := 0) hr (by simpa using l1) gx hB
  obtain ⟨y1, y2⟩ := cells_in hrd (n := 0) hr (by simpa using l2) gy hB
  obtain ⟨nx, ex⟩ := Int.eq_ofNat_of_zero_le (show 0 ≤ roundHalfAway (rd (lx / c.costmap.resolution)) by dsimp only at x1; omega)
  obtain ⟨ny, ey⟩ := Int.eq_ofNat_of_zero_le (show 0 ≤ roundHalfAway (rd (ly / c.costmap.resolution)) by dsimp only at y1; omega)
  dsimp only at x1 y1
  obtain ⟨b, m, e, hc', g, f1, t1, r1, z1, s1, -, -, hl⟩ := C96_window_partial hrd h.ok hrb (geometry := ⟨lx, ly⟩)
    (by dsimp only at l1 ⊢; linarith) (by dsimp only at l2 ⊢; linarith) (nx := nx) (ny := ny) (by omega) (by omega) ex ey hnew
    "obstacle_costs"
  rw [windowI_world hrd h hrb hg, e] at e1
  obtain ⟨rfl, rfl⟩ : b1 = b ∧ m1 = m := by cases e1; exact ⟨rfl, rfl⟩
  obtain ⟨msg, k1, -, k3⟩ := C108_message_partial hrd h1 (by rw [t1]; exact ht) (by rw [s1]; decide) (by rw [s1]; decide)
  have hsrv : serviceCallbackI rd c lx ly = .ok (true, msg) := by
    unfold serviceCallbackI
    rw [windowI_world hrd h hrb hg, e]
    dsimp only
    rw [k1]
    rfl
  have ht' : m1.timestamp < 2 ^ 32 * 1000000000 := by rw [t1]; exact ht
  have hnm : m1.size.x * m1.size.y < 2 ^ 31 := by rw [z1]; rw [ex, ey] at hn; exact hn
  have occ := fun l => C108_occupancy_same_partial rd rf (m := m1) h1.geo.start h1.small hnm l []
  refine ⟨b1, m1, msg, by rw [windowI_world hrd h hrb hg, e], h1, hsrv, k3, ?_⟩
  rcases hl with ⟨ly0, ex0⟩ | ⟨rfl, ly0, -⟩
  · right
    have ly0 : m1.layers = [] := ly0
    refine ⟨ly0, fun s => ?_⟩
    have hne : m1.exists s.layerName = false := by rw [ex0]; rfl
    have key : m1.toOccupancyGridI rd rf s.layerName [] = .thrown .outOfRange := by
      rw [occ, toOccupancyGridRd_eq rd rf m1 ⟨m1.size.x * m1.resolution, m1.size.y * m1.resolution⟩,
        C52_missing_layer rf (geo_withLength h1.geo) hne ht']
      rfl
    unfold Relay.stepI
    simp only [k3 _ noLayers_new, ly0, key]
  · left
    have ly0 : m1.layers = ["obstacle_costs"] := by rw [ly0]; rfl
    have hex : m1.exists "obstacle_costs" = true := (h1.coherent.mem_iff _).1 (by rw [ly0]; simp)
    obtain ⟨g0, a0, -⟩ := toOccupancyGrid_run rf (geo_withLength h1.geo) (coherent_withLength
      ⟨m1.size.x * m1.resolution, m1.size.y * m1.resolution⟩ h1.coherent) hex ht' []
    have key := toOccupancyGridRd_eq rd rf m1 ⟨m1.size.x * m1.resolution, m1.size.y * m1.resolution⟩ "obstacle_costs" []
    rw [a0] at key
    refine ⟨rfl, ly0, _, key, fun s => ?_⟩
    unfold Relay.stepI
    simp only [k3 _ noLayers_new, ly0, occ, key]
    rfl

/-- C108. The relay, over any number of calls that failed or were answered by the service: nothing is undefined, and it either goes on
or ends with the exception for a missing layer; what it has published stays published. -/
theorem C108_relay_partial {w : World K} {rd rf : K → K} (hrd : DoublePrecision rd) {replies : List (Option (CostMapMsg K))}
    (h : ∀ msg, some msg ∈ replies → ∃ c lx ly, w.Request rd c lx ly ∧ serviceCallbackI rd c lx ly = .ok (true, msg)) (s : Relay K) :
    ((Relay.runI rd rf replies s).1 = .ok () ∨ (Relay.runI rd rf replies s).1 = .thrown .outOfRange) ∧
      s.published <+: (Relay.runI rd rf replies s).2.published := by
  induction replies generalizing s with
  | nil => exact ⟨.inl rfl, List.prefix_rfl⟩
  | cons r rs ih =>
    have ih := ih fun msg hm => h msg (by simp [hm])
    rw [show Relay.runI rd rf (r :: rs) = Act.bind (Relay.stepI rd rf r) (fun _ => Relay.runI rd rf rs) from rfl]
    cases r with
    | none =>
      rw [Act.bind_ok (show Relay.stepI rd rf none s = (.ok (), s) from rfl)]
      exact ih s
    | some msg =>
      obtain ⟨c, lx, ly, hreq, hm⟩ := h msg (by simp)
      obtain ⟨b, m, msg', -, -, e, -, hs⟩ := C108_service_partial (rf := rf) hrd hreq
      obtain rfl : msg = msg' := by rw [hm] at e; cases e; rfl
      rcases hs with ⟨-, -, g, -, hs⟩ | ⟨-, hs⟩
      · rw [Act.bind_ok (hs s)]
        have := ih ⟨"obstacle_costs", s.published ++ [g]⟩
        exact ⟨this.1, (List.prefix_append _ _).trans this.2⟩
      · unfold Act.bind
        rw [hs s]
        exact ⟨.inr rfl, List.prefix_rfl⟩

/-- C108. When the resolution and the corner of the costmap are multiples of a power of two (`GridExact`) and the window, of `nx` by `ny`
cells, fits into the costmap with a cell to spare on each side: the service answers with success, the relay publishes, and the grid has the
frame and the time of the costmap and as many cells. A reader of the grid that looks up the centre of a cell of the window, exactly or in
floating point, finds the translation of the cost of the costmap's cell with that centre. -/
theorem C108_exact_partial {w : World K} {rd rf : K → K} (hrd : DoublePrecision rd) (hi : IntsExact rd) {u : K} (hgx : GridExact rd u)
    {c : Costmap2DROS K} (h : w.Costmap c.costmap) {a : Nat} {b : Idx} (hgrid : c.costmap.OnGrid u a b) {rb : Vec K}
    (hrb : c.robot = some rb) (hp : PointIn w.size rb) (ht : c.now < 2 ^ 32 * 10 ^ 9)
    (hrf : |rf c.costmap.resolution - c.costmap.resolution| ≤ c.costmap.resolution / 2 ^ 24)
    {nx ny : Nat} (hnx : 0 < nx) (hny : 0 < ny) (hn : nx * ny < 2 ^ 31)
    (hx0 : c.costmap.origin.x + (nx + 2) * c.costmap.resolution / 2 ≤ rb.x)
    (hx1 : rb.x + (nx + 2) * c.costmap.resolution / 2 ≤ c.costmap.origin.x + c.costmap.sizeX * c.costmap.resolution)
    (hy0 : c.costmap.origin.y + (ny + 2) * c.costmap.resolution / 2 ≤ rb.y)
    (hy1 : rb.y + (ny + 2) * c.costmap.resolution / 2 ≤ c.costmap.origin.y + c.costmap.sizeY * c.costmap.resolution) :
    ∃ m msg g, serviceCallbackI rd c (nx * c.costmap.resolution) (ny * c.costmap.resolution) = .ok (true, msg) ∧
      fromMessageI rd msg (CostMap.new []) = (.ok true, m) ∧
      (∀ s : Relay K, Relay.stepI rd rf (some msg) s = (.ok (), ⟨"obstacle_costs", s.published ++ [g]⟩)) ∧
      g.frameId = c.globalFrame ∧ stampToNSec g.stampSec g.stampNsec = c.now ∧ g.width = (nx : Int) ∧ g.height = (ny : Int) ∧
      ∀ i : Idx, i.In ⟨nx, ny⟩ → ∃ (v : Cost) (col row : Nat), m.idealCentre i = c.costmap.cellCentre col row ∧
        c.costmap.cell col row = some v ∧
        ∀ rq, DoublePrecision rq → g.valueAtRd rq (c.costmap.cellCentre col row) = some (occupancyOf v) := by
  have hr := h.ok.res
  have hB : w.size ≤ 2 ^ 23 * c.costmap.resolution := w.cells.trans (by have := h.cell; nlinarith)
  have px : (1 : K) ≤ nx := by exact_mod_cast hnx
  have py : (1 : K) ≤ ny := by exact_mod_cast hny
  have qx := mul_le_mul_of_nonneg_right px hr.le
  have qy := mul_le_mul_of_nonneg_right py hr.le
  have cx := h.high_x; have cy := h.high_y
  have hg : w.Geometry ⟨nx * c.costmap.resolution, ny * c.costmap.resolution⟩ c.costmap.resolution rb :=
    ⟨h.cell, by dsimp only; linarith, by dsimp only; linarith, by dsimp only; linarith, by dsimp only; linarith, hp⟩
  have rnd : ∀ {n : Nat}, (n : K) * c.costmap.resolution + 2 * c.costmap.resolution ≤ w.size →
      roundHalfAway (rd (n * c.costmap.resolution / c.costmap.resolution)) = n := by
    intro n hn
    rw [mul_div_cancel_right₀ _ hr.ne']
    have : ((n : K) + 2) * c.costmap.resolution ≤ 2 ^ 23 * c.costmap.resolution := by linarith
    have := le_of_mul_le_mul_right this hr
    have hn' : (n : Int) < 2 ^ 53 := by
      have : (n : K) ≤ ((2 ^ 23 : Nat) : K) := by push_cast; linarith
      have : n ≤ 2 ^ 23 := by exact_mod_cast this
      omega
    have e := hi (n : Int) (by rw [abs_of_nonneg (Int.natCast_nonneg n)]; linarith)
    rw [Int.cast_natCast] at e
    rw [e]
    exact_mod_cast roundHalfAway_intCast (K := K) (n : Int) (by omega)
  have hreq : w.Request rd c (nx * c.costmap.resolution) (ny * c.costmap.resolution) := by
    refine ⟨h, ⟨rb, hrb, hg⟩, ?_, ht⟩
    rw [rnd hg.high_x, rnd hg.high_y]
    exact_mod_cast hn
  obtain ⟨b1, m, msg, e1, hw, e2, e3, e4⟩ := C108_service_partial (rf := rf) hrd hreq
  obtain ⟨m', k1, kc, kg, kf, kt, kr, kz, ks, kp1, kp2, kl, kv⟩ := C96_window_exact_partial hrd hi hgx h.ok hgrid hrb hnx hny hx0 hx1 hy0
    hy1 (new_coherent (K := K) (ls := []) (by simp)) "obstacle_costs"
  rw [windowI_world hrd h hrb hg, k1] at e1
  obtain ⟨rfl, rfl⟩ : b1 = true ∧ m' = m := by cases e1; exact ⟨rfl, rfl⟩
  have kl : m'.layers = ["obstacle_costs"] := by rw [kl]; rfl
  rcases e4 with ⟨-, -, g, g1, g2⟩ | ⟨e5, -⟩
  swap
  · rw [e5] at kl; cases kl
  have hex : m'.exists "obstacle_costs" = true := (kc.mem_iff _).1 (by rw [kl]; simp)
  obtain ⟨g', o1, o2, o3, o4, o5, o6⟩ := C95_occupancy_partial hrd kg hw.tame kc ks hex (by rw [kt]; exact ht)
    (rf := rf) (by rw [kr]; exact hrf) []
  obtain rfl : g = g' := by rw [g1] at o1; cases o1; rfl
  refine ⟨m', msg, g, e2, e3 _ noLayers_new, g2, o2.trans kf, o3.trans kt, by rw [o4, kz], by rw [o5, kz], fun i hi => ?_⟩
  rw [← kz] at hi
  obtain ⟨v, col, row, v1, v2, v3⟩ := kv i hi
  have tol : ∀ {n : Nat} {pos q o : K}, |pos - q| ≤ m'.resolution / 2 + (|q| + |o| + m'.resolution) / 2 ^ 48 → |q| ≤ w.size →
      |o| ≤ w.size → (n : K) * c.costmap.resolution + 2 * c.costmap.resolution ≤ w.size →
      extent (n : Int) pos m'.resolution / 2 ^ 48 + ((n : Int) : K) * m'.resolution / 2 ^ 24 ≤ m'.resolution / 2 := by
    intro n pos q o h1 h2 h3 h4
    rw [kr] at h1 ⊢
    unfold extent
    rw [Int.cast_natCast]
    have f1 : (|q| + |o| + c.costmap.resolution) / 2 ^ 48 ≤ c.costmap.resolution / 2 := by
      rw [div_le_iff₀ (by positivity)]; linarith
    have f2 : |pos| ≤ w.size + c.costmap.resolution := by
      have := abs_sub_abs_le_abs_sub pos q
      linarith
    have f3 : |pos| + ((n : K) + 1) * c.costmap.resolution ≤ 2 ^ 24 * c.costmap.resolution := by linarith
    have f4 : (|pos| + ((n : K) + 1) * c.costmap.resolution) / 2 ^ 48 ≤ c.costmap.resolution / 2 ^ 24 := by
      rw [div_le_div_iff₀ (by positivity) (by positivity)]
      rw [show (2 : K) ^ 48 = 2 ^ 24 * 2 ^ 24 by norm_num]
      linarith
    have f5 : (n : K) * c.costmap.resolution / 2 ^ 24 ≤ c.costmap.resolution / 2 - c.costmap.resolution / 2 ^ 23 := by
      rw [div_le_iff₀ (by positivity)]
      linarith
    have f6 : c.costmap.resolution / 2 ^ 24 ≤ c.costmap.resolution / 2 ^ 23 :=
      div_le_div_of_nonneg_left hr.le (by positivity) (by norm_num)
    linarith
  have t1 := tol kp1 hp.1 h.corner.1 hg.high_x
  have t2 := tol kp2 hp.2 h.corner.2 hg.high_y
  obtain ⟨v', a1, -, a3⟩ := o6 i (m'.idealCentre i) hi
    (by rw [sub_self, abs_zero]; unfold gridTolX tolX; rw [kz]; linarith)
    (by rw [sub_self, abs_zero]; unfold gridTolY tolY; rw [kz]; linarith)
  obtain rfl : v' = v := by rw [v1] at a1; cases a1; rfl
  rw [v3] at a3
  exact ⟨v', col, row, v3, v2, a3⟩

/-- C108. When the robot's position is not known, the service answers with success and a map without geometry, on which the relay stops
with a failed assertion. -/
theorem C108_no_pose_stops_the_relay {rd rf : K → K} {c : Costmap2DROS K} (h : c.robot = none) (lx ly : K) :
    ∃ msg, serviceCallbackI rd c lx ly = .ok (true, msg) ∧ ∀ s, (Relay.stepI rd rf (some msg) s).1 = .assertFail := by
  have st : stampOf (CostMap.new [] : CostMap K).timestamp = .ok (0, 0) := by
    show stampOf 0 = _
    decide
  have e0 : fromCostmap2DROSAtRobotPoseI rd c ⟨lx, ly⟩ "obstacle_costs" (CostMap.new []) = (.ok false, CostMap.new []) := by
    unfold fromCostmap2DROSAtRobotPoseI initAtRobotPoseI
    rw [h]
    rfl
  obtain ⟨msg, hm, hx⟩ : ∃ msg, (CostMap.new [] : CostMap K).toMessage = .ok msg ∧ msg.lengthX = 0 :=
    ⟨_, by unfold toMessage; rw [st, Res.bind_ok]; rfl, rfl⟩
  refine ⟨msg, ?_, fun s => ?_⟩
  · unfold serviceCallbackI
    rw [e0]
    dsimp only
    rw [hm]
    rfl
  · have : (fromMessageI rd msg (CostMap.new [])).1 = .assertFail := by
      unfold fromMessageI
      rw [Act.bind_ok (show Act.modify _ (CostMap.new []) = (.ok (), _) from rfl)]
      unfold Act.bind setGeometryI
      rw [if_pos (by show ¬ 0 < msg.lengthX; rw [hx]; exact lt_irrefl _)]
    unfold Relay.stepI
    rcases e : fromMessageI rd msg (CostMap.new []) with ⟨r, m⟩
    rw [e] at this
    simp only at this
    subst this
    simp only [e]

end

/-! ## Cases -/

namespace Demo

theorem tenth_request : hundred.Request toDouble (tenthRos (9 / 20)) (toDouble (1 / 2)) (toDouble (1 / 10)) :=
  ⟨tenth_costmap, ⟨⟨toDouble (9 / 20), toDouble (3 / 20)⟩, rfl, by decide +kernel, by decide +kernel, by decide +kernel, by decide +kernel,
    by decide +kernel, by unfold PointIn; decide +kernel⟩, by decide +kernel, by decide⟩

/-- A ROS costmap of 8 x 6 cells of a quarter; the cost of the cell in column x and row y is 8 y + x. -/
def quarterCostmap : Costmap2D ℚ := ⟨8, 6, 1 / 4, ⟨-1, 1 / 2⟩, (List.range 48).map UInt8.ofNat⟩

theorem quarter_ok : quarterCostmap.Ok := ⟨by decide +kernel, by decide, by decide, by decide +kernel⟩

theorem quarter_costmap : hundred.Costmap quarterCostmap :=
  ⟨quarter_ok, by decide +kernel, by decide +kernel, by decide +kernel, by unfold PointIn; decide +kernel⟩

end Demo

/-- D49. C108 is false: a window of 0.5 by 0.1 around a robot at (0.45, 0.15), well inside a costmap of cells of 0.1 that reaches from
(0, 0) to (1, 0.3). The service answers with success; no layer was written, and the relay ends with an exception. -/
theorem C108_false_relay : ∃ msg, serviceCallbackI toDouble (Demo.tenthRos (9 / 20)) (toDouble (1 / 2)) (toDouble (1 / 10)) =
      .ok (true, msg) ∧ ∀ s : Relay ℚ, Relay.stepI toDouble toFloat (some msg) s = (.thrown .outOfRange, s) := by
  obtain ⟨b, m, msg, e, -, h1, -, h2⟩ := C108_service_partial (rf := toFloat) toDouble_precision Demo.tenth_request
  refine ⟨msg, h1, (h2.resolve_left fun h => ?_).2⟩
  have : (fromCostmap2DROSAtRobotPoseI toDouble (Demo.tenthRos (9 / 20)) ⟨toDouble (1 / 2), toDouble (1 / 10)⟩ "obstacle_costs"
    (CostMap.new [])).2.layers = [] := by decide +kernel
  rw [e] at this
  rw [h.2.1] at this
  cases this

example : ∃ msg, ∀ s : Relay ℚ, ((Relay.runI toDouble toFloat [none, some msg, none] s).1 = .ok () ∨
    (Relay.runI toDouble toFloat [none, some msg, none] s).1 = .thrown .outOfRange) := by
  obtain ⟨b, m, msg, -, -, h, -⟩ := C108_service_partial (rf := toFloat) toDouble_precision Demo.tenth_request
  refine ⟨msg, fun s => (C108_relay_partial toDouble_precision (w := Demo.hundred) (fun msg' hm => ?_) s).1⟩
  simp only [List.mem_cons, Option.some.injEq, reduceCtorEq, List.not_mem_nil, or_false, false_or] at hm
  rw [hm]
  exact ⟨_, _, _, Demo.tenth_request, h⟩

-- A window of 3 by 2 cells of the costmap with cells of a quarter.
example : ∃ m msg g, serviceCallbackI toDouble ⟨Demo.quarterCostmap, "map", some ⟨0, toDouble (13 / 10)⟩, 7⟩
      (((3 : Nat) : ℚ) * (1 / 4)) (((2 : Nat) : ℚ) * (1 / 4)) = .ok (true, msg) ∧ fromMessageI toDouble msg (CostMap.new []) = (.ok true, m) ∧
    (∀ s : Relay ℚ, Relay.stepI toDouble toFloat (some msg) s = (.ok (), ⟨"obstacle_costs", s.published ++ [g]⟩)) ∧
    g.frameId = "map" ∧ g.width = 3 ∧ g.height = 2 := by
  obtain ⟨m, msg, g, h1, h2, h3, h4, -, h5, h6, -⟩ := C108_exact_partial (rf := toFloat) toDouble_precision toDouble_ints
    (C96_double_grid (-3)) (c := ⟨Demo.quarterCostmap, "map", some ⟨0, toDouble (13 / 10)⟩, 7⟩) Demo.quarter_costmap (a := 1) (b := ⟨-8, 4⟩)
    ⟨by decide +kernel, by decide +kernel, by decide +kernel, by decide +kernel, by decide +kernel, by decide +kernel⟩ rfl
    (by unfold PointIn; decide +kernel) (by decide) (by decide +kernel) (nx := 3) (ny := 2) (by decide) (by decide) (by decide)
    (by decide +kernel) (by decide +kernel) (by decide +kernel) (by decide +kernel)
  exact ⟨m, msg, g, h1, h2, h3, h4, h5, h6⟩

example : ∃ msg, Demo.tenths.toMessage = .ok msg ∧ ∀ e : CostMap ℚ, NoLayers e → fromMessageI toDouble msg e = (.ok true, Demo.tenths) :=
  C108_history_message_partial (F := binary64) (rf := toFloat) toDouble_precision toDouble_ints Demo.top64 Demo.tenths_held (by decide +kernel)
    (by decide +kernel) (by decide +kernel)

-- The cell (3, 2) of the map with cells of a tenth, looked up near its centre.
example : ∃ g c, Demo.tenths.toOccupancyGridI toDouble toFloat "a" [] = .ok g ∧ g.width = Demo.tenths.size.x ∧ g.height = Demo.tenths.size.y ∧
    Demo.tenths.at "a" ⟨3, 2⟩ = .ok c ∧
    g.valueAtRd toDouble ⟨(Demo.tenths.idealCentre ⟨3, 2⟩).x + 1 / 100, (Demo.tenths.idealCentre ⟨3, 2⟩).y⟩ = some (occupancyOf c) := by
  obtain ⟨g, h1, -, -, h2, h3, h4⟩ := C108_history_occupancy_partial (F := binary64) (rf := toFloat) toDouble_precision toDouble_ints
    Demo.top64 Demo.tenths_held (l := "a") (by decide +kernel) (by decide +kernel) (by decide +kernel) (by decide +kernel) (by decide +kernel) []
  obtain ⟨c, c1, -, c2⟩ := h4 ⟨3, 2⟩ ⟨(Demo.tenths.idealCentre ⟨3, 2⟩).x + 1 / 100, (Demo.tenths.idealCentre ⟨3, 2⟩).y⟩
    (by decide +kernel) (by decide +kernel) (by decide +kernel)
  exact ⟨g, c, h1, h2, h3, c1, c2 _ toDouble_precision⟩

-- The costmap of the relay's example, whose robot has no position.
example : ∃ msg, serviceCallbackI toDouble ⟨Demo.quarterCostmap, "map", none, 7⟩ 1 1 = .ok (true, msg) ∧
    ∀ s : Relay ℚ, (Relay.stepI toDouble toFloat (some msg) s).1 = .assertFail :=
  C108_no_pose_stops_the_relay rfl 1 1

example : (({ (CostMap.new ["a"] : CostMap ℚ) with size := ⟨50000, 50000⟩ }).toOccupancyGridI toDouble toFloat "a" []) = .ub :=
  C108_occupancy_overflow toDouble toFloat (by decide) (by decide) "a" []

end CostMapModel

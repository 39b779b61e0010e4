import Verif.Lemmas.Programs

/-!
# Properties C85 and C86: the demo programs
-/

set_option linter.unusedSectionVars false

namespace CostMapModel
open CostMap
variable {K : Type} [Field K] [LinearOrder K] [IsStrictOrderedRing K] [FloorRing K]

/-! ## C85 -/

/-- C85. The inflation computer of the program is defined for every distance. -/
theorem C85_computer {env : InflationsEnv K} {n : Nat} (ok : env.Ok n) (d : K) :
    Inflation.rosCost env.rf env.rd env.exp (env.rf (3 / 10)) (env.rf 5) d = .ok (Inflations.computer env d) :=
  (Inflations.computer_spec ok.float ok.double ok.double252 ok.exp).1 d

/-- C85. With a usable bundle that lists the layer `obstacle_costs`, the program publishes three occupancy grids of the bundle's
frame, size and place. At the centre of each cell they relate as follows, `a`, `b`, `c` being the values for the obstacles, after
inflation and after deflation. `a` is what the pixel stands for. `b` is 100 exactly where `a` is, is never below a known `a`, and
differs from `a` only within the inflation radius of a cell that shows 100. `c` is `b` where that is 100 or unknown, and 0
elsewhere; so the obstacles after deflation are the obstacles before inflation. -/
theorem C85_inflations {env : InflationsEnv K} {file frame : String} {cx cy r : K} {nx ny : Nat} {entries : List (String × String)}
    (hfile : Inflations.locate env "cost_map_ros/example.yaml" = .ok file)
    (hyaml : (env.disk file).yaml = bundleYaml frame cx cy r nx ny entries)
    (hr : 0 < r) (hx : 0 < nx) (hy : 0 < ny) (hx' : nx < 2 ^ 23) (hy' : ny < 2 ^ 23) {png : String}
    (hpng : entries.lookup "obstacle_costs" = some png) {n : Nat} (hn : n = radiusInCells (env.rf (8 / 10)) (env.rf r))
    (hn' : n < 2 ^ 32 - 1) (ok : env.Ok n) :
    ∃ s g1 g2 g3, Inflations.main env Inflations.start = (.ok 0, s) ∧ s.message.isSome ∧
      s.grids = [("obstacle_layer", g1), ("inflation_layer", g2), ("deflation_layer", g3)] ∧
      (∀ g ∈ [g1, g2, g3], g.frameId = frame ∧ g.width = nx ∧ g.height = ny ∧ g.resolution = env.rf (env.rf r) ∧
        g.origin = ⟨cx - nx * env.rf r / 2, cy - ny * env.rf r / 2⟩) ∧
      ∀ i : Idx, i.In ⟨nx, ny⟩ → ∃ a b c : Int,
        g1.valueAt (cellCentre cx cy (env.rf r) nx ny i) = some a ∧ g2.valueAt (cellCentre cx cy (env.rf r) nx ny i) = some b ∧
        g3.valueAt (cellCentre cx cy (env.rf r) nx ny i) = some c ∧
        (∀ img, (env.disk file).images png = some img → (FileImage.toImage (some img)).height = nx →
          (FileImage.toImage (some img)).width = ny →
          ∃ v, (FileImage.toImage (some img)).costAt env.cv i = some v ∧ a = occupancyOf v) ∧
        (b = 100 ↔ a = 100) ∧ (0 ≤ a → a ≤ b) ∧
        (b ≠ a → ∃ q : Idx, q.In ⟨nx, ny⟩ ∧ sqDist i q ≤ n * n ∧
          g1.valueAt (cellCentre cx cy (env.rf r) nx ny q) = some 100) ∧
        c = if b = 100 ∨ b = -1 then b else 0 := by
  have hclose : Close24 env.rf := ok.float24
  have hrr : 0 < env.rf r := hclose.pos hr
  obtain ⟨m, m1, m2, m3, m4, m5, m6, m7, m8, m9, -, m11, -, m13⟩ := C70_load_any_bundle env.cv hclose hyaml hr hx hy hx' hy'
    (e := CostMap.new []) empty_coherent
  obtain ⟨msg, hmsg, -⟩ := (Sendable.mk m3 m2 (by rw [m5]; norm_num) (by rw [m8]; simp only; omega) (by rw [m8]; simp only; omega)
    (by rw [m9]; decide) (by rw [m9]; decide) : Sendable m).send
  have hls : m.exists "obstacle_costs" = true := by
    refine (m2.mem_iff _).1 ((m11 _).2 ?_)
    obtain ⟨as, bs, hab, -⟩ := List.lookup_eq_some_iff.1 hpng
    exact .inr (List.mem_map.2 ⟨("obstacle_costs", png), by rw [hab]; simp, rfl⟩)
  have hn2 : n = radiusInCells (env.rf (8 / 10)) m.resolution := by rw [m7]; exact hn
  have hh := ok.hyp
  rw [hn2] at hh
  obtain ⟨st, i1, i2, i3, i4, i5, i6⟩ := C38_only_near_obstacles (computer := Inflations.computer env) m2 m3.res_pos hls
    "inflated_costs" (by rw [← hn2]; exact hn') ok.pop hh .new []
  obtain ⟨st', i1', -, -, -, -, i7⟩ := C40_terminates_in_bounds (computer := Inflations.computer env) m2 m3.res_pos hls
    "inflated_costs" (by rw [← hn2]; exact hn') ok.pop hh .new []
  rw [i1] at i1'; cases i1'
  have hli : st.map.exists "inflated_costs" = true := by
    refine (i7.mem_iff _).1 ?_
    rw [i4]
    by_cases h : m.exists "inflated_costs" = true
    · rw [if_pos h]; exact (m2.mem_iff _).2 h
    · rw [if_neg h]; simp
  obtain ⟨w, d1, d2, d3, d4, d5, d6, d7, d8⟩ := C46_deflate false i7 hli "deflated_costs"
  -- the program runs to its end
  have wo : w.exists "obstacle_costs" = true := by
    rw [exists_of_get (d7 _ (by decide)), exists_of_get (i5 _ (by decide))]; exact hls
  have wi : w.exists "inflated_costs" = true := by rw [exists_of_get (d7 _ (by decide))]; exact hli
  have sg : SameGeometry m w := ⟨d2.length.trans i2.length, d2.resolution.trans i2.resolution, d2.position.trans i2.position,
    d2.size.trans i2.size, d2.startIndex.trans i2.startIndex⟩
  have sm : SameMeta m w := ⟨d3.frameId.trans i3.frameId, d3.timestamp.trans i3.timestamp, d3.basicLayers.trans i3.basicLayers⟩
  have wg : w.Geo := sg.geo m3
  have wt : w.timestamp < 2 ^ 32 * 1000000000 := by rw [sm.timestamp, m5]; norm_num
  have ws : w.startIndex = 0 := sg.startIndex.trans m9
  have wz : w.size = ⟨nx, ny⟩ := sg.size.trans m8
  have wr : w.resolution = env.rf r := sg.resolution.trans m7
  have wp : w.position = ⟨cx, cy⟩ := sg.position.trans m6
  have wc : |env.rf w.resolution - w.resolution| ≤ w.resolution / 2 ^ 24 := by rw [wr]; exact hclose _ hrr
  have grid : ∀ l, w.exists l = true → ∃ g, w.toOccupancyGrid env.rf l [] = .ok g ∧
      (g.frameId = frame ∧ g.width = nx ∧ g.height = ny ∧ g.resolution = env.rf (env.rf r) ∧
        g.origin = ⟨cx - nx * env.rf r / 2, cy - ny * env.rf r / 2⟩) ∧
      ∀ i : Idx, i.In ⟨nx, ny⟩ → ∃ v, w.at l i = .ok v ∧
        g.valueAt (cellCentre cx cy (env.rf r) nx ny i) = some (occupancyOf v) := by
    intro l hl
    obtain ⟨g, g1, g2, -, g3, g4, g5, g6, -⟩ := C51_header env.rf wg d4 hl wt []
    obtain ⟨g', g1', g7⟩ := C51_placed_by_centre_partial env.rf wg d4 ws hl wt wc (by rw [wz]; simp only; omega)
      (by rw [wz]; simp only; omega) []
    rw [g1] at g1'; cases g1'
    refine ⟨g, g1, ⟨g2.trans (sm.frameId.trans m4), by rw [g3, wz], by rw [g4, wz], by rw [g5, wr], ?_⟩, fun i hi => ?_⟩
    · rw [g6, wp, wg.len_x, wg.len_y, wr, wz]
      simp
    · have hq := getPosition_eq (m := w) (i := i) (by rw [wz]; exact hi)
      have hu : unwrapIdx i w.size w.startIndex = i := by rw [ws]; simp [unwrapIdx]
      obtain ⟨v, v1, v2⟩ := g7 i _ hq
      refine ⟨v, v1, ?_⟩
      rw [← v2, hu]
      congr 1
      unfold cellCentre center
      rw [wp, wg.len_x, wg.len_y, wr, wz]
      ext <;> simp only <;> push_cast <;> ring
  obtain ⟨g1, a1, a2, a3⟩ := grid _ wo
  obtain ⟨g2, b1, b2, b3⟩ := grid _ wi
  obtain ⟨g3, c1, c2, c3⟩ := grid _ d6
  refine ⟨⟨w, some msg, [("obstacle_layer", g1), ("inflation_layer", g2), ("deflation_layer", g3)]⟩, g1, g2, g3, ?_, rfl, rfl,
    by simp [a2, b2, c2], fun i hi => ?_⟩
  · have t : Inflations.tryBlock env Inflations.start = (.ok (), ⟨w, some msg, []⟩) := by
      simp only [Inflations.tryBlock, Act.bind, Act.read, hfile, Inflations.onMap, Inflations.start, m1, hmsg, Act.modify,
        Inflations.inflateStep, i1, d1]
    simp only [Inflations.main, t, Inflations.publish, Act.bind, Act.read, a1, b1, c1, Act.modify, Act.pure, List.nil_append]
  · obtain ⟨v, v1, v2⟩ := a3 i hi
    obtain ⟨u, u1, u2⟩ := b3 i hi
    obtain ⟨t, t1, t2⟩ := c3 i hi
    have hi' : i.In m.size := by rw [m8]; exact hi
    have vo : m.at "obstacle_costs" i = .ok v := by
      rw [← at_of_get (i5 _ (by decide)) i, ← at_of_get (d7 _ (by decide)) i]; exact v1
    have uo : st.map.at "inflated_costs" i = .ok u := by rw [← at_of_get (d7 _ (by decide)) i]; exact u1
    have ht : t = if LETHAL_OBSTACLE ≤ u then u else FREE_SPACE := by
      obtain ⟨k1, k2, -⟩ := d8 i u uo
      by_cases hk : Kept false u
      · rw [k1 hk] at t1; cases t1
        exact (if_pos (kept_iff.1 hk)).symm
      · rw [k2 hk] at t1; cases t1
        exact (if_neg (fun h => hk (kept_iff.2 h))).symm
    have key : u = v ∨ ∃ q, m.Lethal "obstacle_costs" q ∧ sqDist i q ≤ n * n ∧
        u = combined v (inflationCost env.hyp (Inflations.computer env) m.resolution i q) := by
      rcases i6 i v hi' vo with h | ⟨q, q1, q2, q3⟩
      · rw [uo] at h; cases h; exact .inl rfl
      · rw [uo] at q3; cases q3; exact .inr ⟨q, q1, by rw [hn2]; exact q2, rfl⟩
    have lethal : u = LETHAL_OBSTACLE ↔ v = LETHAL_OBSTACLE := by
      rcases key with h | ⟨q, ⟨q0, q1⟩, q2, q3⟩
      · rw [h]
      · obtain ⟨p1, p2⟩ := inflationCost_lethal ok m3.res_pos q2
        rw [q3]
        exact combined_lethal p1 (fun h => by have := p2 h; subst this; rw [vo] at q1; cases q1; rfl)
    have known : v ≠ NO_INFORMATION → v ≤ u ∧ u ≠ NO_INFORMATION := by
      intro hv
      rcases key with h | ⟨q, ⟨q0, q1⟩, q2, q3⟩
      · rw [h]; exact ⟨UInt8.le_refl _, hv⟩
      · rw [q3]
        refine ⟨combined_known hv, ?_⟩
        exact combined_ne_unknown (inflationCost_lethal ok m3.res_pos q2).1 hv
    refine ⟨_, _, _, v2, u2, t2, fun img h1 h2 h3 => ?_, ?_, fun h => ?_, fun h => ?_, ?_⟩
    · obtain ⟨v', e1, e2⟩ := (m13 _ _ hpng).1 img h1 h2 h3 i hi'
      rw [vo] at e2; cases e2
      exact ⟨v, e1, rfl⟩
    · rw [occupancyOf_lethal, occupancyOf_lethal]; exact lethal
    · obtain ⟨k1, k2⟩ := known ((occupancyOf_known v).1 h)
      exact occupancyOf_mono k1 k2
    · rcases key with h' | ⟨q, ⟨q0, q1⟩, q2, q3⟩
      · exact absurd (by rw [h']) h
      · rw [m8] at q0
        refine ⟨q, q0, q2, ?_⟩
        obtain ⟨v', e1, e2⟩ := a3 q q0
        rw [at_of_get (d7 _ (by decide)) q, at_of_get (i5 _ (by decide)) q, q1] at e1
        cases e1
        exact e2
    · rw [ht]
      exact deflated_value u

/-- C85. The cases in which the program exits with failure before it publishes a grid: the resource cannot be found; the file is
missing or no YAML; a field of the metadata is missing; the bundle is usable, but has no layer `obstacle_costs`. -/
theorem C85_failure {env : InflationsEnv K} :
    (∀ e, Inflations.locate env "cost_map_ros/example.yaml" = .thrown e →
      Inflations.main env Inflations.start = (.ok 1, Inflations.start)) ∧
    ∀ file, Inflations.locate env "cost_map_ros/example.yaml" = .ok file →
      ((env.disk file).yaml = .missing ∨ (env.disk file).yaml = .unparsable ∨
          (∃ b, (env.disk file).yaml = .parsed b ∧ (b.frameId = none ∨ b.centreX = none ∨ b.centreY = none ∨ b.resolution = none ∨
            b.cellsX = none ∨ b.cellsY = none)) →
        Inflations.main env Inflations.start = (.ok 1, Inflations.start)) ∧
      ∀ frame cx cy r nx ny entries, (env.disk file).yaml = bundleYaml frame cx cy r nx ny entries → 0 < r → 0 < nx → 0 < ny →
        nx < 2 ^ 23 → ny < 2 ^ 23 → "obstacle_costs" ∉ entries.map Prod.fst → (∀ x, 0 < x → |env.rf x - x| ≤ x / 2 ^ 24) →
        ∃ s, Inflations.main env Inflations.start = (.ok 1, s) ∧ s.grids = [] ∧ s.message.isSome := by
  refine ⟨fun e h => ?_, fun file hfile => ⟨fun h => ?_, ?_⟩⟩
  · have t : Inflations.tryBlock env Inflations.start = (.thrown e, Inflations.start) := by
      simp only [Inflations.tryBlock, Act.bind, Act.read, h]
    simp only [Inflations.main, t]
  · obtain ⟨e, he⟩ : ∃ e, readInfo env.rf (env.disk file).yaml = .thrown e := by
      rcases h with h | h | ⟨b, h, hb⟩
      · exact ⟨_, by rw [h]; rfl⟩
      · exact ⟨_, by rw [h]; rfl⟩
      · refine ⟨.logicError, ?_⟩
        rw [h]
        obtain ⟨f, x, y, r, nx, ny, ls⟩ := b
        rcases hb with hb | hb | hb | hb | hb | hb <;> simp only at hb <;> subst hb <;>
          simp only [readInfo]
    have t : Inflations.tryBlock env Inflations.start = (.thrown e, Inflations.start) := by
      simp only [Inflations.tryBlock, Act.bind, Act.read, hfile, Inflations.onMap, Inflations.start, fromImageBundle, Act.lift, he]
    simp only [Inflations.main, t]
  · intro frame cx cy r nx ny entries hyaml hr hx hy hx' hy' hno hclose
    obtain ⟨m, m1, m2, m3, m4, m5, m6, m7, m8, m9, -, m11, -⟩ := C70_load_any_bundle env.cv hclose hyaml hr hx hy hx' hy'
      (e := CostMap.new []) empty_coherent
    obtain ⟨msg, hmsg, -⟩ := (Sendable.mk m3 m2 (by rw [m5]; norm_num) (by rw [m8]; simp only; omega)
      (by rw [m8]; simp only; omega) (by rw [m9]; decide) (by rw [m9]; decide) : Sendable m).send
    have hls : m.exists "obstacle_costs" = false := by
      rw [Bool.eq_false_iff]
      intro h
      rcases (m11 _).1 ((m2.mem_iff _).2 h) with h | h
      · simp [CostMap.new] at h
      · exact hno h
    obtain ⟨st, i1, i2, -⟩ := C04_inflate_missing_layer env.pop env.hyp (Inflations.computer env) (env.rf (8 / 10)) m
      Inflater.new hls "inflated_costs" []
    have t : Inflations.tryBlock env Inflations.start = (.thrown .outOfRange, ⟨st.map, some msg, []⟩) := by
      simp only [Inflations.tryBlock, Act.bind, Act.read, hfile, Inflations.onMap, Inflations.start, m1, hmsg, Act.modify,
        Inflations.inflateStep, i1]
    exact ⟨⟨st.map, some msg, []⟩, by simp only [Inflations.main, t], rfl, rfl⟩

namespace Demo

/-- A bundle of three by two cells of 40 centimetres with one black, one grey and four white pixels. -/
def bundle : Files ℚ where
  yaml := bundleYaml "map" 1 2 (2 / 5) 3 2 [("obstacle_costs", "o.png")]
  images := fun f => if f = "o.png" then some (.gray ⟨3, 2, [0, 255, 255, 200, 255, 255], rfl⟩) else none

/-- Exact arithmetic, and a function with the properties of the exponential. -/
def inflationsEnv : InflationsEnv ℚ where
  cv := cv
  rf := id
  rd := id
  exp := fun x => max 0 (1 + x)
  hyp := hyp
  pop := pop
  registered := ["/opt/share/cost_map_ros/image_bundles/example.yaml"]
  onDisk := fun _ => false
  disk := fun _ => bundle

theorem inflationsEnv_ok (n : Nat) : inflationsEnv.Ok n where
  float := ⟨monotone_id, rfl⟩
  float24 := close24_id
  double := ⟨monotone_id, rfl⟩
  double252 := rfl
  exp := ⟨fun x y h => max_le_max le_rfl (by linarith), fun _ => le_max_left _ _, by norm_num [inflationsEnv]⟩
  hyp := hyp_ok n
  hyp0 := by decide +kernel
  pop := pop_ok

end Demo

example : ∃ s g1 g2 g3, Inflations.main Demo.inflationsEnv Inflations.start = (.ok 0, s) ∧
    s.grids = [("obstacle_layer", g1), ("inflation_layer", g2), ("deflation_layer", g3)] ∧ g3.frameId = "map" := by
  obtain ⟨s, g1, g2, g3, h1, -, h3, h4, -⟩ := C85_inflations (env := Demo.inflationsEnv)
    (file := "/opt/share/cost_map_ros/image_bundles/example.yaml") (by decide +kernel)
    (frame := "map") (cx := 1) (cy := 2) (r := 2 / 5) (nx := 3) (ny := 2) (entries := [("obstacle_costs", "o.png")]) rfl (by norm_num) (by decide) (by decide) (by decide)
    (by decide) (png := "o.png") rfl rfl (by decide +kernel) (Demo.inflationsEnv_ok _)
  exact ⟨s, g1, g2, g3, h1, h3, (h4 g3 (by simp)).1⟩

/-- The three grids of the example: the grey cell and the white one beside the obstacle are within 80 centimetres of it. -/
example : (Inflations.main Demo.inflationsEnv Inflations.start).2.grids.map (fun p => (p.1, p.2.data)) =
    [("obstacle_layer", [0, 0, 21, 0, 0, 100]), ("inflation_layer", [0, 0, 49, 0, 49, 100]),
      ("deflation_layer", [0, 0, 0, 0, 0, 100])] := by decide +kernel

example : Inflations.main { Demo.inflationsEnv with registered := [] } Inflations.start = (.ok 1, Inflations.start) :=
  C85_failure.1 .runtimeError (by decide +kernel)

/-! ## C86 -/

/-- C86. When the first two costmaps are usable, and around the robot in each of the other three a window of the requested size, a
whole number of cells, fits into the costmap, the program publishes five occupancy grids. Each is in the frame of its costmap, has its
resolution and shows its costs: the first two those of the whole costmap, without a time, the others those of the window, with the time of
the conversion. Nothing of an earlier grid is left in a later one, although one message is used for all. -/
theorem C86_from_ros {rf : K → K} {a b c d e : Costmap2DROS K} (hok : ∀ x ∈ [a, b, c, d, e], x.costmap.Ok)
    (hrf : ∀ x ∈ [a, b, c, d, e], rf x.costmap.resolution = x.costmap.resolution)
    (hnow : ∀ x ∈ [c, d, e], x.now < 2 ^ 32 * 1000000000) {nc nd ne : Nat}
    (hc : nc * c.costmap.resolution = 3) (hd : nd * d.costmap.resolution = 3) (he : ne * e.costmap.resolution = 5 / 2)
    (wc : WindowFits c nc nc) (wd : WindowFits d nd nd) (we : WindowFits e ne ne) :
    ∃ g1 g2 g3 g4 g5, FromRos.main rf a b c d e [] = (.ok 0, [g1, g2, g3, g4, g5]) ∧
      Published g1 a a.costmap.sizeX a.costmap.sizeY 0 ∧ Published g2 b b.costmap.sizeX b.costmap.sizeY 0 ∧
      Published g3 c nc nc c.now ∧ Published g4 d nd nd d.now ∧ Published g5 e ne ne e.now := by
  have pos : ∀ {n : Nat} {r x : K}, n * r = x → 0 < x → 0 < n := by
    intro n r x h hx
    rcases Nat.eq_zero_or_pos n with h0 | h0
    · rw [h0, Nat.cast_zero, zero_mul] at h; exact absurd h hx.ne
    · exact h0
  simp only [List.mem_cons, List.not_mem_nil, or_false, forall_eq_or_imp, forall_eq] at hok hrf hnow
  obtain ⟨o1, o2, o3, o4, o5⟩ := hok
  obtain ⟨f1, f2, f3, f4, f5⟩ := hrf
  obtain ⟨t3, t4, t5⟩ := hnow
  have z : (0 : Nat) < 2 ^ 32 * 1000000000 := by norm_num
  obtain ⟨m1, h1, k1⟩ := FromRos.convert_whole o1
  obtain ⟨m2, h2, k2⟩ := FromRos.convert_whole o2
  obtain ⟨m3, h3, k3⟩ := FromRos.convert_window o3 (pos hc (by norm_num)) (pos hc (by norm_num)) wc (geometry := ⟨3, 3⟩) (by rw [hc])
  obtain ⟨m4, h4, k4⟩ := FromRos.convert_window o4 (pos hd (by norm_num)) (pos hd (by norm_num)) wd (geometry := ⟨3, 3⟩) (by rw [hd])
  obtain ⟨m5, h5, k5⟩ := FromRos.convert_window o5 (pos he (by norm_num)) (pos he (by norm_num)) we (geometry := ⟨5 / 2, 5 / 2⟩)
    (by rw [he])
  rw [FromRos.main_eq (FromRos.convertAll_five h1 h2 h3 h4 h5)]
  obtain ⟨g1, p1, q1⟩ := k1.publish f1 z []
  obtain ⟨g2, p2, q2⟩ := k2.publish f2 z g1.data
  obtain ⟨g3, p3, q3⟩ := k3.publish f3 t3 g2.data
  obtain ⟨g4, p4, q4⟩ := k4.publish f4 t4 g3.data
  obtain ⟨g5, p5, q5⟩ := k5.publish f5 t5 g4.data
  refine ⟨g1, g2, g3, g4, g5, ?_, q1, q2, q3, q4, q5⟩
  rw [Act.bind_ok (a := ()) (s' := [g1, g2, g3, g4, g5])]
  · rfl
  rw [FromRos.publishAll_cons k1.layers p1, FromRos.publishAll_cons k2.layers p2, FromRos.publishAll_cons k3.layers p3,
    FromRos.publishAll_cons k4.layers p4, FromRos.publishAll_cons k5.layers p5]
  rfl

/-- C86. When the pose of a robot is not known, the program reads past the end of an empty vector. Here `c`, `d` and `e` either have
a window that fits or no pose, and at least one has none. -/
theorem C86_undefined_without_pose {rf : K → K} {a b c d e : Costmap2DROS K} (hok : ∀ x ∈ [a, b, c, d, e], x.costmap.Ok)
    (hrf : ∀ x ∈ [a, b, c, d, e], rf x.costmap.resolution = x.costmap.resolution)
    (hnow : ∀ x ∈ [c, d, e], x.now < 2 ^ 32 * 1000000000) {nc nd ne : Nat}
    (hc : nc * c.costmap.resolution = 3) (hd : nd * d.costmap.resolution = 3) (he : ne * e.costmap.resolution = 5 / 2)
    (wc : c.robot = none ∨ WindowFits c nc nc) (wd : d.robot = none ∨ WindowFits d nd nd)
    (we : e.robot = none ∨ WindowFits e ne ne) (h : ∃ x ∈ [c, d, e], x.robot = none) :
    ∃ published, FromRos.main rf a b c d e [] = (.ub, published) ∧ published.length < 5 := by
  have pos : ∀ {n : Nat} {r x : K}, n * r = x → 0 < x → 0 < n := by
    intro n r x h hx
    rcases Nat.eq_zero_or_pos n with h0 | h0
    · rw [h0, Nat.cast_zero, zero_mul] at h; exact absurd h hx.ne
    · exact h0
  simp only [List.mem_cons, List.not_mem_nil, or_false, forall_eq_or_imp, forall_eq, exists_eq_or_imp, exists_eq_left] at hok hrf hnow h
  obtain ⟨o1, o2, o3, o4, o5⟩ := hok
  obtain ⟨f1, f2, f3, f4, f5⟩ := hrf
  obtain ⟨t3, t4, t5⟩ := hnow
  have z : (0 : Nat) < 2 ^ 32 * 1000000000 := by norm_num
  have window : ∀ {x : Costmap2DROS K} {n : Nat} {l : K}, x.costmap.Ok → n * x.costmap.resolution = l → 0 < l →
      (x.robot = none ∨ WindowFits x n n) → ∃ m, FromRos.convert x (some ⟨l, l⟩) = .ok m ∧
        (m.layers = [] ∨ x.robot ≠ none ∧ Converted m x n n x.now) := by
    intro x n l ho hl h0 hw
    rcases hw with hw | hw
    · exact ⟨_, FromRos.convert_no_pose hw _, .inl rfl⟩
    · obtain ⟨m, hm, k⟩ := FromRos.convert_window ho (pos hl h0) (pos hl h0) hw (geometry := ⟨l, l⟩) (by rw [hl])
      obtain ⟨rb, hrb, -⟩ := hw
      exact ⟨m, hm, .inr ⟨by rw [hrb]; simp, k⟩⟩
  obtain ⟨m1, h1, k1⟩ := FromRos.convert_whole o1
  obtain ⟨m2, h2, k2⟩ := FromRos.convert_whole o2
  obtain ⟨m3, h3, k3⟩ := window o3 hc (by norm_num) wc
  obtain ⟨m4, h4, k4⟩ := window o4 hd (by norm_num) wd
  obtain ⟨m5, h5, k5⟩ := window o5 he (by norm_num) we
  rw [FromRos.main_eq (FromRos.convertAll_five h1 h2 h3 h4 h5)]
  suffices hs : ∃ published, FromRos.publishAll rf [m1, m2, m3, m4, m5] [] = (.ub, published) ∧ published.length < 5 by
    obtain ⟨p, hp, hl⟩ := hs
    exact ⟨p, by simp only [Act.bind, hp], hl⟩
  obtain ⟨g1, p1, -⟩ := k1.publish f1 z []
  obtain ⟨g2, p2, -⟩ := k2.publish f2 z g1.data
  rw [FromRos.publishAll_cons k1.layers p1, FromRos.publishAll_cons k2.layers p2]
  rcases k3 with k3 | ⟨n3, k3⟩
  · exact ⟨_, FromRos.publishAll_empty k3, by simp⟩
  obtain ⟨g3, p3, -⟩ := k3.publish f3 t3 g2.data
  rw [FromRos.publishAll_cons k3.layers p3]
  rcases k4 with k4 | ⟨n4, k4⟩
  · exact ⟨_, FromRos.publishAll_empty k4, by simp⟩
  obtain ⟨g4, p4, -⟩ := k4.publish f4 t4 g3.data
  rw [FromRos.publishAll_cons k4.layers p4]
  rcases k5 with k5 | ⟨n5, k5⟩
  · exact ⟨_, FromRos.publishAll_empty k5, by simp⟩
  rcases h with h | h | h
  · exact absurd h n3
  · exact absurd h n4
  · exact absurd h n5

namespace Demo

/-- A costmap of five by five metres in cells of half a metre, with different costs in neighbouring cells. -/
def square (robot : Option (Vec ℚ)) : Costmap2DROS ℚ :=
  ⟨⟨10, 10, 1 / 2, ⟨-5 / 2, 1⟩, (List.range 100).map fun k => UInt8.ofNat (2 * k)⟩, "map", robot, 7⟩

theorem square_ok (robot : Option (Vec ℚ)) : (square robot).costmap.Ok :=
  ⟨by norm_num [square], Nat.zero_lt_succ 9, Nat.zero_lt_succ 9, by simp [square]⟩

theorem square_fits {n : Nat} (h : n ≤ 6) : WindowFits (square (some ⟨1 / 10, 17 / 5⟩)) n n := by
  have : (n : ℚ) ≤ 6 := by exact_mod_cast h
  refine ⟨_, rfl, ?_, ?_, ?_, ?_⟩ <;> simp only [square] <;> push_cast <;> linarith

end Demo

example : ∃ gs, FromRos.main id (Demo.square none) (Demo.square none) (Demo.square (some ⟨1 / 10, 17 / 5⟩))
    (Demo.square (some ⟨1 / 10, 17 / 5⟩)) (Demo.square (some ⟨1 / 10, 17 / 5⟩)) [] = (.ok 0, gs) := by
  obtain ⟨g1, g2, g3, g4, g5, h, -⟩ := C86_from_ros (rf := id) (a := Demo.square none) (b := Demo.square none)
    (c := Demo.square (some ⟨1 / 10, 17 / 5⟩)) (d := Demo.square (some ⟨1 / 10, 17 / 5⟩)) (e := Demo.square (some ⟨1 / 10, 17 / 5⟩))
    (nc := 6) (nd := 6) (ne := 5) (by simp [Demo.square_ok]) (by simp) (by simp [Demo.square])
    (by norm_num [Demo.square]) (by norm_num [Demo.square]) (by norm_num [Demo.square]) (Demo.square_fits (by decide))
    (Demo.square_fits (by decide)) (Demo.square_fits (by decide))
  exact ⟨_, h⟩

example := C86_undefined_without_pose (rf := id) (a := Demo.square none) (b := Demo.square none)
  (c := Demo.square (some ⟨1 / 10, 17 / 5⟩)) (d := Demo.square none) (e := Demo.square (some ⟨1 / 10, 17 / 5⟩))
  (nc := 6) (nd := 6) (ne := 5) (by simp [Demo.square_ok]) (by simp) (by simp [Demo.square])
  (by norm_num [Demo.square]) (by norm_num [Demo.square]) (by norm_num [Demo.square]) (.inr (Demo.square_fits (by decide)))
  (.inl rfl) (.inr (Demo.square_fits (by decide))) (by simp [Demo.square])

end CostMapModel

import Verif.Props.Nodes

/-!
# C66, C67, C69: streams of messages through nodes
-/

set_option linter.unusedSectionVars false

namespace CostMapModel
open CostMap
variable {K : Type} [Field K] [LinearOrder K] [IsStrictOrderedRing K] [FloorRing K]

/-! ## C66 -/

theorem relay_step {rf : K → K} {s : Relay K} {m : CostMap K} (hs : Sendable m) {msg : CostMapMsg K} (hm : m.toMessage = .ok msg)
    {layer : String} (hl : requestedLayer s.layerName m = layer) {g : OccupancyGrid K}
    (hg : m.toOccupancyGrid rf layer [] = .ok g) : Relay.step rf (some msg) s = (.ok (), ⟨layer, s.published ++ [g]⟩) := by
  obtain ⟨msg', s1, -, s3⟩ := hs.send
  rw [hm] at s1; cases s1
  subst hl
  unfold Relay.step
  unfold requestedLayer at hg ⊢
  simp only [s3 _ noLayers_new]
  rcases e : m.layers with _ | ⟨a, _ | ⟨b, ls⟩⟩ <;> simp only [e] at hg ⊢ <;> rw [hg]

/-- C66, when every map has the layer that was asked for: for every sequence of replies, some of them failed calls, the relay
publishes one grid per map, in order, and each shows the layer that was asked for. In the full statement maps with one
layer are shown whatever its name; see `C66_false`. -/
theorem C66_relay_partial (rf : K → K) (asked : String) {maps : List (Option (CostMap K))}
    {replies : List (Option (CostMapMsg K))}
    (hr : List.Forall₂ (fun om r => match om with
      | none => r = none
      | some m => Sendable m ∧ asked ∈ m.layers ∧ ∃ msg, m.toMessage = .ok msg ∧ r = some msg) maps replies)
    (gs : List (OccupancyGrid K)) :
    ∃ gs', Relay.run rf replies ⟨asked, gs⟩ = (.ok (), ⟨asked, gs ++ gs'⟩) ∧
      List.Forall₂ (fun m g => m.toOccupancyGrid rf asked [] = .ok g) (maps.filterMap id) gs' := by
  induction hr generalizing gs with
  | nil => exact ⟨[], by rw [List.append_nil]; rfl, .nil⟩
  | @cons om r maps replies h hr ih =>
    unfold Relay.run Act.forEach
    cases om with
    | none =>
      simp only at h
      subst h
      rw [Act.bind_ok (show Relay.step rf none _ = (.ok (), _) from rfl)]
      obtain ⟨gs', h1, h2⟩ := ih gs
      exact ⟨gs', h1, h2⟩
    | some m =>
      obtain ⟨hs, hl, msg, hm, rfl⟩ := h
      obtain ⟨g, hg⟩ := hs.grid rf hl
      have step := relay_step (s := ⟨asked, gs⟩) hs hm (layer := asked) (by
        unfold requestedLayer
        split
        · rename_i l e; rw [e, List.mem_singleton] at hl; exact hl.symm
        · rfl) hg
      rw [Act.bind_ok step]
      obtain ⟨gs', h1, h2⟩ := ih (gs ++ [g])
      refine ⟨g :: gs', ?_, List.Forall₂.cons hg h2⟩
      rw [show gs ++ g :: gs' = gs ++ [g] ++ gs' by simp]; exact h1

/-- C66. A map with one layer is shown, whatever its name. -/
theorem C66_single_layer (rf : K → K) (s : Relay K) {m : CostMap K} (hs : Sendable m) {l : String} (hl : m.layers = [l])
    {msg : CostMapMsg K} (hm : m.toMessage = .ok msg) :
    ∃ g, m.toOccupancyGrid rf l [] = .ok g ∧ Relay.step rf (some msg) s = (.ok (), ⟨l, s.published ++ [g]⟩) := by
  obtain ⟨g, hg⟩ := hs.grid rf (l := l) (by rw [hl]; simp)
  exact ⟨g, hg, relay_step hs hm (by unfold requestedLayer; rw [hl]) hg⟩

namespace Demo
/-- A map with one layer `l`. -/
def one (l : String) (c : Cost) : CostMap ℚ :=
  ⟨"map", 0, fun k => if k = l then some ⟨1, 1, [c], rfl⟩ else none, [l], [], ⟨1, 1⟩, 1, ⟨0, 0⟩, ⟨1, 1⟩, 0⟩

/-- A map with two layers. -/
def twoLayers (k l : String) (c d : Cost) : CostMap ℚ :=
  ⟨"map", 0, fun n => if n = k then some ⟨1, 1, [c], rfl⟩ else if n = l then some ⟨1, 1, [d], rfl⟩ else none, [k, l], [],
    ⟨1, 1⟩, 1, ⟨0, 0⟩, ⟨1, 1⟩, 0⟩

theorem one_sendable (l : String) (c : Cost) : Sendable (one l c) := by
  refine ⟨⟨by show (0 : ℚ) < 1; norm_num, by show (0 : Int) < 1; decide, by show (0 : Int) < 1; decide,
    by show (1 : ℚ) = (1 : Int) * 1; norm_num, by show (1 : ℚ) = (1 : Int) * 1; norm_num, by show Idx.In 0 ⟨1, 1⟩; decide⟩,
    ⟨by simp [one], fun k => ?_, fun k a ha => ?_⟩, by show 0 < _; norm_num, by show (1 : Int) < _; decide,
    by show (1 : Int) < _; decide, by show (0 : Int) < _; decide, by show (0 : Int) < _; decide⟩
  · by_cases h : k = l <;> simp [one, h]
  · by_cases h : k = l
    · have ha : some _ = some a := (if_pos h).symm.trans ha
      cases ha
      exact ⟨rfl, rfl⟩
    · simp [one, h] at ha

theorem twoLayers_sendable {k l : String} (hkl : k ≠ l) (c d : Cost) : Sendable (twoLayers k l c d) := by
  refine ⟨⟨by show (0 : ℚ) < 1; norm_num, by show (0 : Int) < 1; decide, by show (0 : Int) < 1; decide,
    by show (1 : ℚ) = (1 : Int) * 1; norm_num, by show (1 : ℚ) = (1 : Int) * 1; norm_num, by show Idx.In 0 ⟨1, 1⟩; decide⟩,
    ⟨by simp [twoLayers, hkl], fun n => ?_, fun n a ha => ?_⟩, by show 0 < _; norm_num, by show (1 : Int) < _; decide,
    by show (1 : Int) < _; decide, by show (0 : Int) < _; decide, by show (0 : Int) < _; decide⟩
  · by_cases h : n = k
    · simp [twoLayers, h]
    · by_cases h' : n = l
      · simp [twoLayers, h', hkl.symm]
      · simp [twoLayers, h, h']
  · by_cases h : n = k
    · have ha : some _ = some a := (if_pos h).symm.trans ha
      cases ha
      exact ⟨rfl, rfl⟩
    · by_cases h' : n = l
      · have ha : some _ = some a := ((if_neg h).trans (if_pos h')).symm.trans ha
        cases ha
        exact ⟨rfl, rfl⟩
      · simp [twoLayers, h, h'] at ha
end Demo

/-- C66 is false: after a map with the one layer `static`, a map with the layers `static` and `obstacle_costs` is shown with its
layer `static`, although `obstacle_costs` was asked for. -/
theorem C66_false : ¬ ∀ (asked : String) (maps : List (CostMap ℚ)) (msgs : List (CostMapMsg ℚ)),
    List.Forall₂ (fun m msg => Sendable m ∧ m.toMessage = .ok msg ∧ requestedLayer asked m ∈ m.layers) maps msgs →
    ∃ gs l, Relay.run id (msgs.map some) ⟨asked, []⟩ = (.ok (), ⟨l, gs⟩) ∧
      List.Forall₂ (fun m g => m.toOccupancyGrid id (requestedLayer asked m) [] = .ok g) maps gs := by
  intro h
  have s1 := Demo.one_sendable "static" 0
  have s2 := Demo.twoLayers_sendable (k := "static") (l := "obstacle_costs") (by decide) 0 254
  obtain ⟨a, a1, -, a3⟩ := s1.send
  obtain ⟨b, b1, -, b3⟩ := s2.send
  obtain ⟨gs, l, h1, h2⟩ := h "obstacle_costs" [Demo.one "static" 0, Demo.twoLayers "static" "obstacle_costs" 0 254] [a, b]
    (.cons ⟨s1, a1, by decide⟩ (.cons ⟨s2, b1, by decide⟩ .nil))
  obtain ⟨g1, -, e1⟩ := C66_single_layer id ⟨"obstacle_costs", []⟩ s1 (l := "static") rfl a1
  obtain ⟨g2, k2⟩ := s2.grid id (l := "static") (by decide)
  have e2 := relay_step (s := ⟨"static", [] ++ [g1]⟩) s2 b1 (layer := "static") rfl k2
  rw [List.map_cons, List.map_cons, List.map_nil, Relay.run, Act.forEach, Act.bind_ok e1, Act.forEach, Act.bind_ok e2] at h1
  cases h1
  cases h2 with
  | cons _ h2 =>
    cases h2 with
    | cons h2 _ =>
      have d1 : (match (Demo.twoLayers "static" "obstacle_costs" 0 254).toOccupancyGrid id "static" [] with
          | .ok g => g.data
          | _ => []) = [0] := by decide +kernel
      have d2 : (match (Demo.twoLayers "static" "obstacle_costs" 0 254).toOccupancyGrid id "obstacle_costs" [] with
          | .ok g => g.data
          | _ => []) ≠ [0] := by decide +kernel
      rw [k2] at d1
      rw [show requestedLayer "obstacle_costs" (Demo.twoLayers "static" "obstacle_costs" 0 254) = "obstacle_costs" from rfl] at h2
      rw [h2] at d2
      exact d2 d1

example : ∃ a b gs, (Demo.one "x" 3).toMessage = .ok a ∧ (Demo.twoLayers "x" "y" 3 4).toMessage = .ok b ∧
    Relay.run id [some a, none, some b] ⟨"x", []⟩ = (.ok (), ⟨"x", gs⟩) ∧ gs.length = 2 := by
  obtain ⟨a, a1, -⟩ := (Demo.one_sendable "x" 3).send
  obtain ⟨b, b1, -⟩ := (Demo.twoLayers_sendable (k := "x") (l := "y") (by decide) 3 4).send
  obtain ⟨gs, h1, h2⟩ := C66_relay_partial id "x" (maps := [some (Demo.one "x" 3), none, some (Demo.twoLayers "x" "y" 3 4)])
    (replies := [some a, none, some b]) (.cons ⟨Demo.one_sendable _ _, by decide, a, a1, rfl⟩ (.cons rfl
      (.cons ⟨Demo.twoLayers_sendable (by decide) _ _, by decide, b, b1, rfl⟩ .nil))) []
  exact ⟨a, b, gs, a1, b1, h1, h2.length_eq.symm⟩

/-! ## C67 -/

theorem visualiser_layers (rf : K → K) {m : CostMap K} (hs : Sendable m) {msg : CostMapMsg K} (hm : m.toMessage = .ok msg) :
    ∀ {ls : List String}, ls ⊆ m.layers → ∀ s : Visualiser K,
      ∃ topics pub, Act.forEach (Visualiser.layer rf msg) ls s = (.ok (), ⟨topics, s.published ++ pub⟩) ∧
        (∀ t, t ∈ topics ↔ t ∈ s.topics ∨ t ∈ ls) ∧ (s.topics.Nodup → topics.Nodup) ∧
        List.Forall₂ (fun (l : String) (q : String × OccupancyGrid K) => q.1 = l ∧ m.toOccupancyGrid rf l [] = .ok q.2) ls pub
  | [], _, s => ⟨s.topics, [], by rw [List.append_nil]; rfl, by simp, id, .nil⟩
  | l :: ls, h, s => by
    obtain ⟨g, hg⟩ := hs.grid rf (h (by simp : l ∈ l :: ls))
    obtain ⟨msg', s1, -, s3⟩ := hs.send
    rw [hm] at s1; cases s1
    have step : Visualiser.layer rf msg l s =
        (.ok (), ⟨if l ∈ s.topics then s.topics else s.topics ++ [l], s.published ++ [(l, g)]⟩) := by
      unfold Visualiser.layer
      simp only [s3 _ noLayers_new, hg]
      split <;> rfl
    obtain ⟨topics, pub, h1, h2, h3, h4⟩ := visualiser_layers rf hs hm (ls := ls) (fun x hx => h (by simp [hx]))
      ⟨if l ∈ s.topics then s.topics else s.topics ++ [l], s.published ++ [(l, g)]⟩
    refine ⟨topics, (l, g) :: pub, ?_, fun t => ?_, fun hn => h3 ?_, .cons ⟨rfl, hg⟩ h4⟩
    · rw [Act.forEach, Act.bind_ok step, h1]; simp
    · rw [h2, List.mem_cons]
      simp only
      by_cases hl : l ∈ s.topics
      · rw [if_pos hl]
        constructor
        · rintro (h | h)
          · exact .inl h
          · exact .inr (.inr h)
        · rintro (h | rfl | h)
          · exact .inl h
          · exact .inl hl
          · exact .inr h
      · rw [if_neg hl, List.mem_append, List.mem_singleton, or_assoc]
    · simp only
      by_cases hl : l ∈ s.topics
      · rw [if_pos hl]; exact hn
      · rw [if_neg hl, List.nodup_append]
        exact ⟨hn, by simp, fun a ha b hb => by rw [List.mem_singleton] at hb; rintro rfl; exact hl (hb ▸ ha)⟩

/-- C67, for maps: for every sequence of maps the node publishes, for each map in order and for each of its layers in order, the
occupancy grid of that layer on the topic with the layer's name, and it advertises each layer it has seen once. In the
full statement messages that do not convert are skipped; see `C67_refused_message_ends_the_node` and `C67_false`. -/
theorem C67_visualiser_partial (rf : K → K) {maps : List (CostMap K)} {msgs : List (CostMapMsg K)}
    (h : List.Forall₂ (fun m msg => Sendable m ∧ m.toMessage = .ok msg) maps msgs) (s : Visualiser K) :
    ∃ topics pub, Visualiser.run rf msgs s = (.ok (), ⟨topics, s.published ++ pub⟩) ∧
      (∀ t, t ∈ topics ↔ t ∈ s.topics ∨ ∃ m ∈ maps, t ∈ m.layers) ∧ (s.topics.Nodup → topics.Nodup) ∧
      List.Forall₂ (fun (p : CostMap K × String) (q : String × OccupancyGrid K) =>
        q.1 = p.2 ∧ p.1.toOccupancyGrid rf p.2 [] = .ok q.2) (maps.flatMap fun m => m.layers.map fun l => (m, l)) pub := by
  induction h generalizing s with
  | nil => exact ⟨s.topics, [], by rw [List.append_nil]; rfl, by simp, id, .nil⟩
  | @cons m msg maps msgs hm hrest ih =>
    obtain ⟨hs, hm⟩ := hm
    obtain ⟨t1, p1, a1, a2, a3, a4⟩ := visualiser_layers rf hs hm (ls := m.layers) (fun _ h => h) s
    obtain ⟨t2, p2, b1, b2, b3, b4⟩ := ih ⟨t1, s.published ++ p1⟩
    have hlay : msg.layers = m.layers := by
      obtain ⟨msg', s1, s2, -⟩ := hs.send
      rw [hm] at s1; cases s1; exact s2
    refine ⟨t2, p1 ++ p2, ?_, fun t => ?_, fun hn => b3 (a3 hn), ?_⟩
    · unfold Visualiser.run at b1 ⊢
      have : Visualiser.callback rf msg s = (.ok (), ⟨t1, s.published ++ p1⟩) := by
        unfold Visualiser.callback; rw [hlay, a1]
      rw [Act.forEach, Act.bind_ok this, b1, List.append_assoc]
    · rw [b2, a2]
      simp only [List.mem_cons, exists_eq_or_imp, or_assoc]
    · rw [List.flatMap_cons]
      refine List.rel_append ?_ b4
      rw [List.forall₂_map_left_iff]
      exact a4

/-- C67. A message that is refused because it has more or fewer arrays than layers ends the node with an exception. -/
theorem C67_refused_message_ends_the_node (rf : K → K) {msg : CostMapMsg K} (h : msg.GeometryOk)
    (hx : msg.resolution ≤ msg.lengthX) (hy : msg.resolution ≤ msg.lengthY) (hl : msg.layers ≠ [])
    (hn : msg.layers.length ≠ msg.data.length) (ht : stampToNSec msg.stampSec msg.stampNsec < 2 ^ 32 * 1000000000)
    (s : Visualiser K) : Refused msg ∧ (Visualiser.callback rf msg s).1 = .thrown .outOfRange := by
  have e := fromMessage_counts h hn (CostMap.new [])
  refine ⟨by unfold Refused; rw [e], ?_⟩
  have rnd : ∀ {x : K}, 1 ≤ x → 0 < roundHalfAway x := by
    intro x hx
    unfold roundHalfAway
    rw [if_pos (by linarith)]
    exact Int.floor_pos.2 (by linarith)
  have sx : 0 < (blank msg (CostMap.new [] : CostMap K)).size.x := rnd ((one_le_div h.res).2 hx)
  have sy : 0 < (blank msg (CostMap.new [] : CostMap K)).size.y := rnd ((one_le_div h.res).2 hy)
  have geo : (blank msg (CostMap.new [] : CostMap K)).Geo :=
    ⟨h.res, sx, sy, rfl, rfl, le_refl _, sx, le_refl _, sy⟩
  have htt : (blank msg (CostMap.new [] : CostMap K)).timestamp = stampToNSec msg.stampSec msg.stampNsec := by
    simp only [blank, clearAll, resize, setFrameId, setTimestamp]
  obtain ⟨l, ls, hls⟩ := List.exists_cons_of_ne_nil hl
  have hg : (blank msg (CostMap.new [] : CostMap K)).toOccupancyGrid rf l [] = .thrown .outOfRange :=
    C52_missing_layer rf geo (by simp [CostMap.exists, blank, clearAll, resize, CostMap.new, setTimestamp, setFrameId])
      (by rw [htt]; exact ht) []
  obtain ⟨b, e, hg⟩ : ∃ b, fromMessage msg (CostMap.new []) = (.ok false, b) ∧ b.toOccupancyGrid rf l [] = .thrown .outOfRange :=
    ⟨_, e, hg⟩
  unfold Visualiser.callback
  rw [hls, Act.forEach]
  unfold Act.bind
  have : (Visualiser.layer rf msg l s).1 = .thrown .outOfRange := by
    unfold Visualiser.layer
    rw [e]
    dsimp only
    rw [hg]
  rcases hq : Visualiser.layer rf msg l s with ⟨r, s'⟩
  rw [hq] at this
  simp only at this
  subst this
  rfl

/-- C67 is false: a refused message is not skipped. -/
theorem C67_false : ¬ ∀ (msgs : List (CostMapMsg ℚ)), (∀ msg ∈ msgs, (∃ m, Converts msg m) ∨ Refused msg) →
    (Visualiser.run id msgs ⟨[], []⟩).1 = .ok () := by
  intro h
  have hr : Refused { Demo.msg with data := [] } := by unfold Refused; decide +kernel
  have := h [{ Demo.msg with data := [] }] (by simpa using .inr hr)
  revert this
  decide +kernel

example : ∃ a b topics pub, (Demo.one "x" 3).toMessage = .ok a ∧ (Demo.twoLayers "x" "y" 3 4).toMessage = .ok b ∧
    Visualiser.run id [a, b] ⟨[], []⟩ = (.ok (), ⟨topics, pub⟩) ∧ pub.length = 3 ∧ (topics.Perm ["x", "y"]) := by
  obtain ⟨a, a1, -⟩ := (Demo.one_sendable "x" 3).send
  obtain ⟨b, b1, -⟩ := (Demo.twoLayers_sendable (k := "x") (l := "y") (by decide) 3 4).send
  obtain ⟨topics, pub, h1, h2, h3, h4⟩ := C67_visualiser_partial id (maps := [Demo.one "x" 3, Demo.twoLayers "x" "y" 3 4])
    (msgs := [a, b]) (.cons ⟨Demo.one_sendable _ _, a1⟩ (.cons ⟨Demo.twoLayers_sendable (by decide) _ _, b1⟩ .nil)) ⟨[], []⟩
  refine ⟨a, b, topics, pub, a1, b1, h1, h4.length_eq.symm, (List.perm_ext_iff_of_nodup (h3 .nil) (by decide)).2 fun t => ?_⟩
  rw [h2]
  simp [Demo.one, Demo.twoLayers]

/-! ## C69 -/

/-- C69, for the first map a saving node gets, without the metadata a bundle does not keep: the node saves the map, and a
loading node on that bundle publishes a message from which a subscriber gets a map with the frame, the size and the layers of the
first map, and with its costs, up to one, at every index. The full statement also has the centre; see `C56_false`. -/
theorem C69_save_then_load_partial {cv : Cv} (hcv : cv.GrayOk) : ∃ f : Cost → Cost,
    f NO_INFORMATION = NO_INFORMATION ∧ (∀ c, c ≠ NO_INFORMATION → f c ≠ NO_INFORMATION) ∧
    f LETHAL_OBSTACLE = LETHAL_OBSTACLE ∧ f INSCRIBED_OBSTACLE = INSCRIBED_OBSTACLE ∧ f FREE_SPACE = FREE_SPACE ∧
    (∀ c d, c ≤ d → f c ≤ f d) ∧ (∀ c : Cost, |((f c).toNat : ℤ) - c.toNat| ≤ 1) ∧
    ∀ {rf txt : K → K}, Close24 rf → ∀ {m : CostMap K}, Sendable m → 0 < txt m.resolution → m.size.x < 2 ^ 23 →
      m.size.y < 2 ^ 23 → ∀ {msg : CostMapMsg K}, m.toMessage = .ok msg → ∀ (before after : List (CostMapMsg K)),
      (∀ x ∈ before, Refused x) → ∀ files : Files K,
      ∃ files' msg' m', SaveNode.run txt (before ++ msg :: after) (.new files) = (.ok (), ⟨true, files', [m]⟩) ∧
        loadImageBundle cv rf files' = .ok msg' ∧ (∀ e : CostMap K, NoLayers e → fromMessage msg' e = (.ok true, m')) ∧
        m'.frameId = m.frameId ∧ m'.size = m.size ∧ m'.layers.Perm m.layers ∧
        ∀ l i c, m.at l i = .ok c → m'.at l i = .ok (f c) := by
  obtain ⟨v1, v2, v3, v4, v5, v6, v7⟩ := reloaded_spec
  refine ⟨reloaded, v1, v2, v3, v4, v5, v6, v7, fun {rf txt} hrf m hs ht hx hy msg hm before after hb files => ?_⟩
  obtain ⟨msg1, s1, -, s3⟩ := hs.send
  rw [hm] at s1; cases s1
  have hconv : Converts msg m := s3 _ noLayers_new
  obtain ⟨files', h1, h2⟩ := bundle_run hcv hrf hs.geo hs.coherent ht hx hy files
  obtain ⟨m', a1, a2, a3, a4, -, a6, a7, a8, a9, a10, a11, -, a13⟩ := h2 _ noLayers_new
  have hr : 0 < m'.resolution := by rw [a7]; exact hrf.pos ht
  have geo : m'.Geo := by
    refine ⟨hr, by rw [a8]; exact hs.geo.size_x, by rw [a8]; exact hs.geo.size_y, by rw [a9, a8], by rw [a9, a8], ?_⟩
    rw [a10, a8]
    exact ⟨le_refl _, hs.geo.size_x, le_refl _, hs.geo.size_y⟩
  have hs' : Sendable m' := ⟨geo, a2, by rw [a4]; norm_num, by rw [a8]; omega, by rw [a8]; omega, by rw [a10]; decide,
    by rw [a10]; decide⟩
  obtain ⟨msg', t1, -, t3⟩ := hs'.send
  refine ⟨files', msg', m', ?_, by unfold loadImageBundle; simp only [a1]; exact t1, t3, a3, a8, a11, a13⟩
  -- the saving node
  induction before with
  | nil =>
    unfold SaveNode.run
    have : SaveNode.callback txt msg (.new files) = (.ok (), ⟨true, files', [m]⟩) := by
      unfold SaveNode.callback
      rw [if_neg (by simp [SaveNode.new])]
      simp only [show fromMessage msg (CostMap.new []) = (.ok true, m) from hconv, SaveNode.new, h1, List.nil_append]
    rw [List.nil_append, Act.forEach, Act.bind_ok this]
    exact C58_finished_is_final txt after rfl
  | cons x before ih =>
    have hx : SaveNode.callback txt x (.new files) = (.ok (), .new files) := by
      unfold SaveNode.callback
      rw [if_neg (by simp [SaveNode.new])]
      have := hb x (by simp)
      unfold Refused at this
      rcases e : fromMessage x (CostMap.new []) with ⟨r, q⟩
      rw [e] at this
      simp only at this
      subst this
      rfl
    have := ih fun y hy => hb y (by simp [hy])
    unfold SaveNode.run at this ⊢
    rw [List.cons_append, Act.forEach, Act.bind_ok hx]
    exact this

example : ∃ files' msg msg' m', (Demo.twoLayers "x" "y" 3 254).toMessage = .ok msg ∧
    SaveNode.run id [{ Demo.msg with data := [] }, msg, Demo.msg] (.new ⟨.missing, fun _ => none⟩) =
      (.ok (), ⟨true, files', [Demo.twoLayers "x" "y" 3 254]⟩) ∧
    loadImageBundle Demo.cv toFloat files' = .ok msg' ∧ fromMessage msg' (CostMap.new []) = (.ok true, m') ∧
    m'.at "y" ⟨0, 0⟩ = .ok 254 := by
  obtain ⟨f, -, -, h254, -, -, -, -, h⟩ := C69_save_then_load_partial (K := ℚ) Demo.cv_grayOk
  have hs := Demo.twoLayers_sendable (k := "x") (l := "y") (by decide) 3 254
  obtain ⟨msg, a1, -⟩ := hs.send
  obtain ⟨files', msg', m', h1, h2, h3, -, -, -, h4⟩ := h (txt := id) close24_toFloat hs (by decide +kernel) (by decide) (by decide)
    a1 [{ Demo.msg with data := [] }] [Demo.msg] (by
      intro x hx
      rw [List.mem_singleton.1 hx]
      unfold Refused
      decide +kernel) ⟨.missing, fun _ => none⟩
  refine ⟨files', msg, msg', m', a1, h1, h2, h3 _ noLayers_new, ?_⟩
  rw [h4 "y" ⟨0, 0⟩ 254 (by decide +kernel)]
  exact congrArg _ h254

end CostMapModel

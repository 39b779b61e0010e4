import Verif.Lemmas.Nodes
import Verif.Spec.Nodes

/-!
# C58, C59, C60, C66, C67, C69: nodes, services and resource names
-/

set_option linter.unusedSectionVars false

namespace CostMapModel
open CostMap
variable {K : Type} [Field K] [LinearOrder K] [IsStrictOrderedRing K] [FloorRing K]

/-! ## C58 -/

/-- C58. Once finished, nothing happens any more. -/
theorem C58_finished_is_final (txt : K → K) (msgs : List (CostMapMsg K)) {s : SaveNode K} (h : s.finished = true) :
    SaveNode.run txt msgs s = (.ok (), s) := by
  unfold SaveNode.run
  induction msgs with
  | nil => rfl
  | cons msg msgs ih =>
    unfold Act.forEach
    rw [Act.bind_ok (show SaveNode.callback txt msg s = (.ok (), s) by unfold SaveNode.callback; rw [if_pos h])]
    exact ih

/-- What one message does to a node that is not finished. -/
theorem saveCallback_cases (txt : K → K) (msg : CostMapMsg K) (files : Files K) :
    (Refused msg ∧ SaveNode.callback txt msg (.new files) = (.ok (), .new files)) ∨
    (∃ m files', Converts msg m ∧ m.toImageBundle txt files = .ok files' ∧
      SaveNode.callback txt msg (.new files) = (.ok (), ⟨true, files', [m]⟩)) ∨
    (∃ r : Res Unit, (∀ b, (fromMessage msg (CostMap.new [])).1 ≠ .ok b) ∧ r ≠ .ok () ∧
      SaveNode.callback txt msg (.new files) = (r, .new files)) := by
  unfold SaveNode.callback Refused Converts
  rw [if_neg (by simp [SaveNode.new])]
  rcases e : fromMessage msg (CostMap.new []) with ⟨r, m⟩
  cases r with
  | ok b =>
    cases b with
    | false => exact .inl ⟨rfl, rfl⟩
    | true =>
      have hc := (C49_from_message_partial (new_coherent (ls := []) (by simp)) e).1
      obtain ⟨images, h1, -⟩ := saveLayers_run hc (ls := m.layers) files.images fun l hl => (hc.mem_iff l).1 hl
      refine .inr (.inl ⟨m, _, rfl, by simp only [toImageBundle, h1, Res.bind_ok]; rfl, ?_⟩)
      simp only [SaveNode.new, toImageBundle, h1, Res.bind_ok, List.nil_append]
  | thrown x => exact .inr (.inr ⟨.thrown x, by simp, by simp, rfl⟩)
  | assertFail => exact .inr (.inr ⟨.assertFail, by simp, by simp, rfl⟩)
  | ub => exact .inr (.inr ⟨.ub, by simp, by simp, rfl⟩)
  | outOfFuel => exact .inr (.inr ⟨.outOfFuel, by simp, by simp, rfl⟩)

/-- C58. For every sequence of messages one of three things is true: all conversions were refused, and nothing was written;
or the first message that was not refused converted, the bundle holds its map and was written once, and the node is
finished; or the first message that was not refused stopped the node, and nothing was written. -/
theorem C58_saves_first_good_message_once (txt : K → K) (files : Files K) (msgs : List (CostMapMsg K)) :
    ((∀ msg ∈ msgs, Refused msg) ∧ SaveNode.run txt msgs (.new files) = (.ok (), .new files)) ∨
    (∃ pre msg post m files', msgs = pre ++ msg :: post ∧ (∀ x ∈ pre, Refused x) ∧ Converts msg m ∧
      m.toImageBundle txt files = .ok files' ∧ SaveNode.run txt msgs (.new files) = (.ok (), ⟨true, files', [m]⟩)) ∨
    (∃ pre msg post r, msgs = pre ++ msg :: post ∧ (∀ x ∈ pre, Refused x) ∧
      (∀ b, (fromMessage msg (CostMap.new [])).1 ≠ .ok b) ∧ r ≠ .ok () ∧
      SaveNode.run txt msgs (.new files) = (r, .new files)) := by
  induction msgs with
  | nil => exact .inl ⟨by simp, rfl⟩
  | cons msg msgs ih =>
    rcases saveCallback_cases txt msg files with ⟨h1, h2⟩ | ⟨m, files', h1, h2, h3⟩ | ⟨r, h1, h2, h3⟩
    · have step : SaveNode.run txt (msg :: msgs) (.new files) = SaveNode.run txt msgs (.new files) := by
        unfold SaveNode.run
        rw [Act.forEach, Act.bind_ok h2]
      rw [step]
      rcases ih with ⟨g1, g2⟩ | ⟨pre, x, post, m, f, g1, g2, g3⟩ | ⟨pre, x, post, r, g1, g2, g3⟩
      · exact .inl ⟨by simpa using ⟨h1, g1⟩, g2⟩
      · exact .inr (.inl ⟨msg :: pre, x, post, m, f, by rw [g1]; rfl, by simpa using ⟨h1, g2⟩, g3⟩)
      · exact .inr (.inr ⟨msg :: pre, x, post, r, by rw [g1]; rfl, by simpa using ⟨h1, g2⟩, g3⟩)
    · refine .inr (.inl ⟨[], msg, msgs, m, files', rfl, by simp, h1, h2, ?_⟩)
      unfold SaveNode.run
      rw [Act.forEach, Act.bind_ok h3]
      exact C58_finished_is_final txt msgs rfl
    · refine .inr (.inr ⟨[], msg, msgs, r, rfl, by simp, h1, h2, ?_⟩)
      unfold SaveNode.run
      rw [Act.forEach]
      unfold Act.bind
      rw [h3]
      cases r with
      | ok u => exact absurd rfl h2
      | _ => rfl

/-- Two messages that are refused, two that convert: the first of these is saved. -/
example : ∃ m files', Converts Demo.msg m ∧ m.toImageBundle id ⟨.missing, fun _ => none⟩ = .ok files' ∧
    SaveNode.run id [{ Demo.msg with data := [] }, Demo.msg, { Demo.msg with frameId := "x" }]
      (.new ⟨.missing, fun _ => none⟩) = (.ok (), ⟨true, files', [m]⟩) := by
  have hm : Refused { Demo.msg with data := [] } := by unfold Refused; decide +kernel
  have hd : (fromMessage Demo.msg (CostMap.new [])).1 = .ok true := by decide +kernel
  rcases C58_saves_first_good_message_once id ⟨.missing, fun _ => none⟩
    [{ Demo.msg with data := [] }, Demo.msg, { Demo.msg with frameId := "x" }] with ⟨h, -⟩ | ⟨pre, msg, post, m, f, e, h, hc, hs, hr⟩ |
      ⟨pre, msg, post, r, e, h, hb, -⟩
  · have := h Demo.msg (by simp)
    rw [Refused, hd] at this
    simp at this
  · have : msg = Demo.msg := by
      match pre, e with
      | [], e => cases e; rw [Converts] at hc; rw [Refused, hc] at hm; simp at hm
      | [_], e => cases e; rfl
      | a :: b :: pre, e =>
        simp only [List.cons_append, List.cons.injEq] at e
        have := h b (by simp)
        rw [← e.2.1, Refused, hd] at this
        simp at this
    subst this
    exact ⟨m, f, hc, hs, hr⟩
  · match pre, e with
    | [], e => cases e; exact absurd hm (hb _)
    | [_], e => cases e; exact absurd hd (hb _)
    | a :: b :: pre, e =>
      simp only [List.cons_append, List.cons.injEq] at e
      have := h b (by simp)
      rw [← e.2.1, Refused, hd] at this
      simp at this

/-! ## C59 -/

/-- C59 when the conversion succeeds: the reply is true and its message is the window, and the relay publishes it. In
the full statement failures are told apart; see `C59_failure_is_answered_with_success` and `C59_false`. -/
theorem C59_success_partial {c : Costmap2DROS K} (hc : c.costmap.Ok) {rb : Vec K} (hrb : c.robot = some rb) {nx ny : Nat}
    (hnx : 0 < nx) (hny : 0 < ny) (bx : nx < 2 ^ 31) (bY : ny < 2 ^ 31) (ht : c.now < 2 ^ 32 * 10 ^ 9)
    (hx0 : c.costmap.origin.x + (nx + 1) * c.costmap.resolution / 2 ≤ rb.x)
    (hx1 : rb.x + (nx + 1) * c.costmap.resolution / 2 < c.costmap.origin.x + c.costmap.sizeX * c.costmap.resolution)
    (hy0 : c.costmap.origin.y + (ny + 1) * c.costmap.resolution / 2 ≤ rb.y)
    (hy1 : rb.y + (ny + 1) * c.costmap.resolution / 2 < c.costmap.origin.y + c.costmap.sizeY * c.costmap.resolution)
    (rf : K → K) :
    ∃ msg m, serviceCallback c (nx * c.costmap.resolution) (ny * c.costmap.resolution) = .ok (true, msg) ∧
      fromCostmap2DROSAtRobotPose c ⟨nx * c.costmap.resolution, ny * c.costmap.resolution⟩ "obstacle_costs" (CostMap.new []) =
        (.ok true, m) ∧
      (∀ e : CostMap K, NoLayers e → fromMessage msg e = (.ok true, m)) ∧
      ∀ s : Relay K, ∃ g, m.toOccupancyGrid rf "obstacle_costs" [] = .ok g ∧
        Relay.step rf (some msg) s = (.ok (), ⟨"obstacle_costs", s.published ++ [g]⟩) := by
  obtain ⟨m, h1, h2, h3, -, h5, -, h7, h8, -, -, h11, -⟩ := C65_window_partial hc hrb hnx hny hx0 hx1 hy0 hy1
    (new_coherent (ls := []) (by simp)) "obstacle_costs"
  have hs : Sendable m := ⟨h3, h2, by rw [h5]; exact ht, by rw [h7]; exact Int.ofNat_lt.2 bx, by rw [h7]; exact Int.ofNat_lt.2 bY,
    by rw [h8]; decide, by rw [h8]; decide⟩
  have hly : m.layers = ["obstacle_costs"] := h11
  obtain ⟨msg, s1, -, s3⟩ := hs.send
  obtain ⟨g, hg⟩ := hs.grid rf (l := "obstacle_costs") (by rw [hly]; simp)
  refine ⟨msg, m, ?_, h1, s3, fun s => ⟨g, hg, ?_⟩⟩
  · unfold serviceCallback
    simp only [h1, s1, Res.bind_ok]
  · unfold Relay.step
    simp only [s3 _ noLayers_new, hly, hg]

/-- C59. Whatever the conversion returns, the reply is success. -/
theorem C59_failure_is_answered_with_success {c : Costmap2DROS K} {lx ly : K} {b : Bool} {m : CostMap K} {msg : CostMapMsg K}
    (h : fromCostmap2DROSAtRobotPose c ⟨lx, ly⟩ "obstacle_costs" (CostMap.new []) = (.ok b, m)) (hm : m.toMessage = .ok msg) :
    serviceCallback c lx ly = .ok (true, msg) := by
  unfold serviceCallback
  simp only [h, hm, Res.bind_ok]

/-- C59. When the robot's pose is not known, the service answers with success and a map without geometry, on which the relay stops
with a failed assertion, whatever it did before. -/
theorem C59_no_pose_stops_the_relay {c : Costmap2DROS K} (h : c.robot = none) (lx ly : K) (rf : K → K) :
    ∃ msg, serviceCallback c lx ly = .ok (true, msg) ∧ ∀ s, (Relay.step rf (some msg) s).1 = .assertFail := by
  obtain ⟨msg, hm, hg⟩ : ∃ msg, (CostMap.new [] : CostMap K).toMessage = .ok msg ∧ ¬ msg.GeometryOk := by
    have st : stampOf (CostMap.new [] : CostMap K).timestamp = .ok (0, 0) := by
      show stampOf 0 = _
      decide
    refine ⟨_, by unfold toMessage; rw [st, Res.bind_ok]; rfl, fun h => lt_irrefl (0 : K) h.res⟩
  refine ⟨msg, C59_failure_is_answered_with_success (C65_no_pose h _ _ _) hm, fun s => ?_⟩
  have := C50_bad_geometry_asserts (CostMap.new []) hg
  unfold Relay.step
  rcases e : fromMessage msg (CostMap.new []) with ⟨r, m⟩
  rw [e] at this
  simp only at this
  subst this
  simp only [e]

/-- C59. When the window leaves the ROS costmap, the service answers with success and a map without layers, on which the relay
ends with an exception. -/
theorem C59_off_the_costmap_ends_the_relay {c : Costmap2DROS K} (hr : 0 < c.costmap.resolution) {rb : Vec K}
    (hrb : c.robot = some rb) {nx ny : Nat} (hnx : 0 < nx) (hny : 0 < ny) (bx : nx < 2 ^ 31) (bY : ny < 2 ^ 31)
    (ht : c.now < 2 ^ 32 * 10 ^ 9)
    (h : rb.x - (nx - 1) * c.costmap.resolution / 2 < c.costmap.origin.x ∨
      rb.y - (ny - 1) * c.costmap.resolution / 2 < c.costmap.origin.y ∨
      c.costmap.origin.x + c.costmap.sizeX * c.costmap.resolution ≤ rb.x + (nx - 1) * c.costmap.resolution / 2 ∨
      c.costmap.origin.y + c.costmap.sizeY * c.costmap.resolution ≤ rb.y + (ny - 1) * c.costmap.resolution / 2)
    (rf : K → K) :
    ∃ msg, serviceCallback c (nx * c.costmap.resolution) (ny * c.costmap.resolution) = .ok (true, msg) ∧
      ∀ s, (Relay.step rf (some msg) s).1 = .thrown .outOfRange := by
  obtain ⟨m, h1, h2, h3, -, -, h6, h7, h4, h5⟩ := C65_off_the_costmap hr hrb hnx hny h (new_coherent (ls := []) (by simp))
    "obstacle_costs"
  have hs : Sendable m := ⟨h4, h5, by rw [h6]; exact ht, by rw [h3]; exact Int.ofNat_lt.2 bx, by rw [h3]; exact Int.ofNat_lt.2 bY,
    by rw [h7]; decide, by rw [h7]; decide⟩
  obtain ⟨msg, s1, -, s3⟩ := hs.send
  refine ⟨msg, C59_failure_is_answered_with_success h1 s1, fun s => ?_⟩
  have hex : ∀ l, m.exists l = false := by
    intro l
    by_contra hl
    have := (h5.mem_iff l).2 (by simpa [CostMap.exists, Option.isSome_iff_ne_none] using hl)
    rw [h2] at this; simp [CostMap.new] at this
  unfold Relay.step
  simp only [s3 _ noLayers_new]
  rw [h2]
  simp only [CostMap.new]
  rw [C52_missing_layer rf h4 (hex _) (by have := hs.time; omega)]

/-- C59 is false: a failed conversion is answered with success. -/
theorem C59_false : ¬ ∀ (c : Costmap2DROS ℚ) (lx ly : ℚ) (m : CostMap ℚ) (msg : CostMapMsg ℚ),
    fromCostmap2DROSAtRobotPose c ⟨lx, ly⟩ "obstacle_costs" (CostMap.new []) = (.ok false, m) →
    serviceCallback c lx ly ≠ .ok (true, msg) := by
  intro h
  exact h { Demo.ros with robot := none } 1 1 (CostMap.new []) ⟨0, 0, "", 0, 0, 0, ⟨0, 0⟩, [], [], [], 0, 0⟩
    (C65_no_pose rfl _ _ _) (C59_failure_is_answered_with_success (C65_no_pose rfl _ _ _) rfl)

example : ∃ msg m, serviceCallback Demo.ros (3 * (1 / 2)) (2 * (1 / 2)) = .ok (true, msg) ∧
    ∀ e : CostMap ℚ, NoLayers e → fromMessage msg e = (.ok true, m) := by
  obtain ⟨msg, m, h1, -, h2, -⟩ := C59_success_partial (c := Demo.ros) Demo.costmap2D_ok rfl (nx := 3) (ny := 2)
    (by decide) (by decide) (by decide) (by decide) (by decide) (by decide +kernel) (by decide +kernel) (by decide +kernel)
    (by decide +kernel) id
  exact ⟨msg, m, h1, h2⟩
example : ∃ msg, serviceCallback Demo.ros (9 * (1 / 2)) (2 * (1 / 2)) = .ok (true, msg) ∧
    (Relay.step id (some msg) ⟨"obstacle_costs", []⟩).1 = .thrown .outOfRange := by
  obtain ⟨msg, h1, h2⟩ := C59_off_the_costmap_ends_the_relay (c := Demo.ros) (by decide +kernel) rfl (nx := 9) (ny := 2)
    (by decide) (by decide) (by decide) (by decide) (by decide) (by decide +kernel) id
  exact ⟨msg, h1, h2 _⟩

/-! ## C60 -/

/-- C60, the part that holds: a name without a slash is an invalid argument; otherwise the first registered file in which
the part before the first slash and the part after it both occur is returned, and there is a runtime error if there is none. The
full statement has a file of the named package; see `C60_false`. -/
theorem C60_resolve_partial (registered : List String) :
    (∀ name : String, '/' ∉ name.toList → resolveResourceName registered name = .thrown .invalidArgument) ∧
    ∀ package file : String, '/' ∉ package.toList →
      ((∀ f ∈ registered, ¬ (OccursIn package f ∧ OccursIn file f)) →
        resolveResourceName registered (package ++ "/" ++ file) = .thrown .runtimeError) ∧
      ∀ pre f post, registered = pre ++ f :: post → (∀ g ∈ pre, ¬ (OccursIn package g ∧ OccursIn file g)) →
        OccursIn package f → OccursIn file f → resolveResourceName registered (package ++ "/" ++ file) = .ok f := by
  have occ : ∀ p f : String, containsStr f.toList p.toList = true ↔ OccursIn p f := by
    intro p f
    rw [containsStr_iff]
    constructor
    · rintro ⟨a, b, h⟩
      refine ⟨String.ofList a, String.ofList b, String.toList_inj.1 ?_⟩
      rw [h]; simp
    · rintro ⟨a, b, rfl⟩
      exact ⟨a.toList, b.toList, by simp⟩
  refine ⟨fun name h => ?_, fun package file h => ?_⟩
  · unfold resolveResourceName; rw [splitSlash_none h]
  · have hs : splitSlash (package ++ "/" ++ file).toList = some (package.toList, file.toList) := by
      rw [← splitSlash_some h]; simp
    unfold resolveResourceName
    rw [hs]
    simp only
    refine ⟨fun hn => ?_, fun pre f post e hn h1 h2 => ?_⟩
    · rw [List.find?_eq_none.2]
      intro f hf
      rw [Bool.and_eq_true, occ, occ]
      exact hn f hf
    · rw [List.find?_eq_some_iff_append.2 ⟨by rw [Bool.and_eq_true, occ, occ]; exact ⟨h1, h2⟩, pre, post, e, fun g hg => ?_⟩]
      have := hn g hg
      rw [← occ, ← occ, ← Bool.and_eq_true, Bool.not_eq_true] at this
      rw [this]; rfl

/-- C60 is false: packages are recognised by substrings, so a file of another package is returned, even when the named
package has registered the file, too. -/
theorem C60_false : ¬ ∀ (registered : List (String × String)) (package file f : String), '/' ∉ package.toList →
    resolveResourceName (registered.map Prod.snd) (package ++ "/" ++ file) = .ok f → (package, f) ∈ registered := by
  intro h
  have := h [("other_maps", "/opt/share/other_maps/hall.yaml"), ("maps", "/opt/share/maps/hall.yaml")] "maps" "hall.yaml"
    "/opt/share/other_maps/hall.yaml" (by decide) (by decide +kernel)
  revert this
  decide

example : resolveResourceName ["/a/b.yaml", "/opt/demos/cost.yaml", "/opt/demos/cost.yaml.old"] "demos/cost.yaml" =
    .ok "/opt/demos/cost.yaml" := by
  refine ((C60_resolve_partial _).2 "demos" "cost.yaml" (by decide)).2 ["/a/b.yaml"] _ ["/opt/demos/cost.yaml.old"] rfl ?_
    ⟨"/opt/", "/cost.yaml", rfl⟩ ⟨"/opt/demos/", "", by decide⟩
  intro g hg h
  obtain rfl := List.mem_singleton.1 hg
  obtain ⟨a, b, hab⟩ := h.1
  have : containsStr "/a/b.yaml".toList "demos".toList = true :=
    containsStr_iff.2 ⟨a.toList, b.toList, by rw [hab, String.toList_append, String.toList_append]⟩
  revert this
  decide
example : resolveResourceName ["/a/b.yaml"] "demos" = .thrown .invalidArgument := (C60_resolve_partial _).1 _ (by decide)

end CostMapModel

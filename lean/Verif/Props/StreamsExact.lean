import Verif.Spec.Streams
import Verif.Props.Tools

/-!
# C66, C67 and C89 without conditions on the layers
-/

set_option linter.unusedSectionVars false

namespace CostMapModel
open CostMap
variable {K : Type} [Field K] [LinearOrder K] [IsStrictOrderedRing K] [FloorRing K]

/-! ## C66 -/

/-- The layer of the `k`-th map is that of the last map up to it with just one layer, if any. -/
theorem shownWith_spec (asked : String) (ms : List (CostMap K)) (k : Nat) (m : CostMap K) (l : String)
    (h : (shownWith asked ms)[k]? = some (m, l)) :
    ms[k]? = some m ∧
    ((∃ i m', i ≤ k ∧ ms[i]? = some m' ∧ m'.layers = [l] ∧
        ∀ j m'', i < j → j ≤ k → ms[j]? = some m'' → m''.layers.length ≠ 1) ∨
      (l = asked ∧ ∀ j m'', j ≤ k → ms[j]? = some m'' → m''.layers.length ≠ 1)) := by
  induction ms generalizing asked k with
  | nil => simp [shownWith] at h
  | cons a ms ih =>
    have hreq : (∃ l', a.layers = [l'] ∧ requestedLayer asked a = l') ∨ (a.layers.length ≠ 1 ∧ requestedLayer asked a = asked) := by
      unfold requestedLayer
      rcases e : a.layers with _ | ⟨x, _ | ⟨y, t⟩⟩ <;> simp
    cases k with
    | zero =>
      simp only [shownWith, List.getElem?_cons_zero, Option.some.injEq, Prod.mk.injEq] at h
      obtain ⟨rfl, rfl⟩ := h
      refine ⟨rfl, ?_⟩
      rcases hreq with ⟨l', e1, e2⟩ | ⟨e1, e2⟩
      · exact .inl ⟨0, a, le_rfl, rfl, by rw [e1, e2], fun j m'' h1 h2 => by omega⟩
      · refine .inr ⟨e2, fun j m'' h1 h2 => ?_⟩
        have : j = 0 := by omega
        subst this
        simp only [List.getElem?_cons_zero, Option.some.injEq] at h2
        exact h2 ▸ e1
    | succ k =>
      simp only [shownWith, List.getElem?_cons_succ] at h
      obtain ⟨h1, h2⟩ := ih _ k h
      refine ⟨by simpa using h1, ?_⟩
      rcases h2 with ⟨i, m', i1, i2, i3, i4⟩ | ⟨i1, i2⟩
      · refine .inl ⟨i + 1, m', by omega, by simpa using i2, i3, fun j m'' j1 j2 j3 => ?_⟩
        obtain ⟨j, rfl⟩ : ∃ j', j = j' + 1 := ⟨j - 1, by omega⟩
        exact i4 j m'' (by omega) (by omega) (by simpa using j3)
      · rcases hreq with ⟨l', e1, e2⟩ | ⟨e1, e2⟩
        · refine .inl ⟨0, a, by omega, rfl, by rw [e1, i1, e2], fun j m'' j1 j2 j3 => ?_⟩
          obtain ⟨j, rfl⟩ : ∃ j', j = j' + 1 := ⟨j - 1, by omega⟩
          exact i2 j m'' (by omega) (by simpa using j3)
        · refine .inr ⟨by rw [i1, e2], fun j m'' j2 j3 => ?_⟩
          cases j with
          | zero => simp only [List.getElem?_cons_zero, Option.some.injEq] at j3; exact j3 ▸ e1
          | succ j => exact i2 j m'' (by omega) (by simpa using j3)

/-- A map without the layer ends the relay. -/
theorem relay_missing {rf : K → K} {s : Relay K} {m : CostMap K} (hs : Sendable m) {msg : CostMapMsg K} (hm : m.toMessage = .ok msg)
    {layer : String} (hl : requestedLayer s.layerName m = layer) (hn : layer ∉ m.layers) :
    Relay.step rf (some msg) s = (.thrown .outOfRange, { s with layerName := layer }) := by
  obtain ⟨msg', s1, -, s3⟩ := hs.send
  rw [hm] at s1; cases s1
  subst hl
  have hg := C52_missing_layer rf hs.geo (l := requestedLayer s.layerName m)
    (by rw [← Bool.not_eq_true]; exact fun h => hn ((hs.coherent.mem_iff _).2 h)) (by have := hs.time; omega) []
  unfold Relay.step
  unfold requestedLayer at hg ⊢
  simp only [s3 _ noLayers_new]
  rcases e : m.layers with _ | ⟨a, _ | ⟨b, ls⟩⟩ <;> simp only [e] at hg ⊢ <;> rw [hg]

/-- C66, what the relay does with every sequence of maps, some calls failing: each map is shown with the name of the last map that had
just one layer, or the layer that was asked for (`shownWith`); the relay ends with an exception at the first map that has no such layer,
and not otherwise. -/
theorem C66_relay_exact (rf : K → K) (asked : String) {maps : List (Option (CostMap K))}
    {replies : List (Option (CostMapMsg K))}
    (hr : List.Forall₂ (fun om r => match om with
      | none => r = none
      | some m => Sendable m ∧ ∃ msg, m.toMessage = .ok msg ∧ r = some msg) maps replies)
    (gs : List (OccupancyGrid K)) :
    ∃ r layer gs', Relay.run rf replies ⟨asked, gs⟩ = (r, ⟨layer, gs ++ gs'⟩) ∧
      List.Forall₂ (fun p g => p.1.toOccupancyGrid rf p.2 [] = .ok g) ((shownWith asked (maps.filterMap id)).takeWhile hasLayer) gs' ∧
      ((∀ p ∈ shownWith asked (maps.filterMap id), p.2 ∈ p.1.layers) → r = .ok ()) ∧
      ((∃ p ∈ shownWith asked (maps.filterMap id), p.2 ∉ p.1.layers) → r = .thrown .outOfRange) := by
  induction hr generalizing gs asked with
  | nil => exact ⟨.ok (), asked, [], by rw [List.append_nil]; rfl, .nil, fun _ => rfl, by simp [shownWith]⟩
  | @cons om r maps replies h hr ih =>
    unfold Relay.run Act.forEach
    cases om with
    | none =>
      simp only at h
      subst h
      rw [Act.bind_ok (show Relay.step rf none _ = (.ok (), _) from rfl)]
      exact ih asked gs
    | some m =>
      obtain ⟨hs, msg, hm, rfl⟩ := h
      rw [show (some m :: maps).filterMap id = m :: maps.filterMap id from rfl, shownWith]
      by_cases hl : requestedLayer asked m ∈ m.layers
      · obtain ⟨g, hg⟩ := hs.grid rf hl
        rw [Act.bind_ok (relay_step (s := ⟨asked, gs⟩) hs hm rfl hg)]
        obtain ⟨r, layer, gs', h1, h2, h3, h4⟩ := ih (requestedLayer asked m) (gs ++ [g])
        refine ⟨r, layer, g :: gs', ?_, ?_, fun h => h3 fun p hp => h p (List.mem_cons_of_mem _ hp), fun ⟨p, hp, hn⟩ => h4 ?_⟩
        · rw [show gs ++ g :: gs' = gs ++ [g] ++ gs' by simp]; exact h1
        · rw [List.takeWhile_cons_of_pos (by simpa [hasLayer] using hl)]
          exact .cons hg h2
        · rcases List.mem_cons.1 hp with rfl | hp
          · exact absurd hl hn
          · exact ⟨p, hp, hn⟩
      · refine ⟨.thrown .outOfRange, requestedLayer asked m, [], ?_, ?_, fun h => absurd (h _ List.mem_cons_self) hl, fun _ => rfl⟩
        · unfold Act.bind
          rw [relay_missing (s := ⟨asked, gs⟩) hs hm rfl hl, List.append_nil]
        · rw [List.takeWhile_cons_of_neg (by simpa [hasLayer] using hl)]
          exact .nil

open Demo in
/-- The maps of `C66_false`, and one without the layer `static`. -/
example : ∃ a b c gs l, (one "static" 0).toMessage = .ok a ∧ (twoLayers "static" "obstacle_costs" 0 254).toMessage = .ok b ∧
    (twoLayers "x" "y" 0 254).toMessage = .ok c ∧
    Relay.run id [some a, none, some b, some c, some a] ⟨"obstacle_costs", []⟩ = (.thrown .outOfRange, ⟨l, gs⟩) ∧ gs.length = 2 := by
  obtain ⟨a, a1, -⟩ := (one_sendable "static" 0).send
  obtain ⟨b, b1, -⟩ := (twoLayers_sendable (k := "static") (l := "obstacle_costs") (by decide) 0 254).send
  obtain ⟨c, c1, -⟩ := (twoLayers_sendable (k := "x") (l := "y") (by decide) 0 254).send
  obtain ⟨r, l, gs, h1, h2, -, h4⟩ := C66_relay_exact id "obstacle_costs"
    (maps := [some (one "static" 0), none, some (twoLayers "static" "obstacle_costs" 0 254), some (twoLayers "x" "y" 0 254),
      some (one "static" 0)]) (replies := [some a, none, some b, some c, some a])
    (.cons ⟨one_sendable _ _, a, a1, rfl⟩ (.cons rfl (.cons ⟨twoLayers_sendable (by decide) _ _, b, b1, rfl⟩
      (.cons ⟨twoLayers_sendable (by decide) _ _, c, c1, rfl⟩ (.cons ⟨one_sendable _ _, a, a1, rfl⟩ .nil))))) []
  have hr := h4 ⟨(twoLayers "x" "y" 0 254, "static"), List.mem_of_getElem? (i := 2) rfl, by decide⟩
  subst hr
  exact ⟨a, b, c, gs, l, a1, b1, c1, by simpa using h1, h2.length_eq.symm⟩

/-! ## C67 -/

/-- A refused message throws at its first layer. -/
theorem refused_layer (rf : K → K) {msg : CostMapMsg K} (h : msg.GeometryOk)
    (hx : msg.resolution ≤ msg.lengthX) (hy : msg.resolution ≤ msg.lengthY)
    (hn : msg.layers.length ≠ msg.data.length) (ht : stampToNSec msg.stampSec msg.stampNsec < 2 ^ 32 * 1000000000)
    (l : String) (s : Visualiser K) :
    ∃ topics, Visualiser.layer rf msg l s = (.thrown .outOfRange, ⟨topics, s.published⟩) := by
  have e := fromMessage_counts h hn (CostMap.new [])
  have rnd : ∀ {x : K}, 1 ≤ x → 0 < roundHalfAway x := by
    intro x hx
    unfold roundHalfAway
    rw [if_pos (by linarith)]
    exact Int.floor_pos.2 (by linarith)
  have sx : 0 < (blank msg (CostMap.new [] : CostMap K)).size.x := rnd ((one_le_div h.res).2 hx)
  have sy : 0 < (blank msg (CostMap.new [] : CostMap K)).size.y := rnd ((one_le_div h.res).2 hy)
  have geo : (blank msg (CostMap.new [] : CostMap K)).Geo :=
    ⟨h.res, sx, sy, rfl, rfl, le_refl _, sx, le_refl _, sy⟩
  have htt : (blank msg (CostMap.new [] : CostMap K)).timestamp = stampToNSec msg.stampSec msg.stampNsec := by
    simp only [blank, clearAll, resize, setFrameId, setTimestamp]
  have hg : (blank msg (CostMap.new [] : CostMap K)).toOccupancyGrid rf l [] = .thrown .outOfRange :=
    C52_missing_layer rf geo (by simp [CostMap.exists, blank, clearAll, resize, CostMap.new, setTimestamp, setFrameId])
      (by rw [htt]; exact ht) []
  obtain ⟨b, e, hg⟩ : ∃ b, fromMessage msg (CostMap.new []) = (.ok false, b) ∧ b.toOccupancyGrid rf l [] = .thrown .outOfRange :=
    ⟨_, e, hg⟩
  unfold Visualiser.layer
  rw [e]
  dsimp only
  rw [hg]
  dsimp only
  split
  · exact ⟨_, rfl⟩
  · exact ⟨_, rfl⟩

/-- C67. Messages without layers are skipped, whatever else they contain; the others that come from maps are shown as in
`C67_visualiser_partial`; and a message that is refused (as in `C67_refused_message_ends_the_node`) ends the node: what was published
before stays, nothing is published any more. -/
theorem C67_visualiser_exact (rf : K → K) {maps : List (Option (CostMap K))} {msgs : List (CostMapMsg K)}
    (h : List.Forall₂ (fun om msg => match om with
      | none => msg.layers = []
      | some m => Sendable m ∧ m.toMessage = .ok msg) maps msgs) (s : Visualiser K) :
    ∃ topics pub, Visualiser.run rf msgs s = (.ok (), ⟨topics, s.published ++ pub⟩) ∧
      (∀ t, t ∈ topics ↔ t ∈ s.topics ∨ ∃ m ∈ maps.filterMap id, t ∈ m.layers) ∧
      List.Forall₂ (fun (p : CostMap K × String) (q : String × OccupancyGrid K) =>
        q.1 = p.2 ∧ p.1.toOccupancyGrid rf p.2 [] = .ok q.2) ((maps.filterMap id).flatMap fun m => m.layers.map fun l => (m, l)) pub ∧
      ∀ (bad : CostMapMsg K) (after : List (CostMapMsg K)), bad.GeometryOk → bad.resolution ≤ bad.lengthX → bad.resolution ≤ bad.lengthY →
        bad.layers ≠ [] → bad.layers.length ≠ bad.data.length → stampToNSec bad.stampSec bad.stampNsec < 2 ^ 32 * 1000000000 →
        ∃ topics', Visualiser.run rf (msgs ++ bad :: after) s = (.thrown .outOfRange, ⟨topics', s.published ++ pub⟩) := by
  induction h generalizing s with
  | nil =>
    refine ⟨s.topics, [], by rw [List.append_nil]; rfl, by simp, .nil, fun bad after h1 h2 h3 h4 h5 h6 => ?_⟩
    obtain ⟨l, ls, hls⟩ := List.exists_cons_of_ne_nil h4
    obtain ⟨topics, e⟩ := refused_layer rf h1 h2 h3 h5 h6 l s
    refine ⟨topics, ?_⟩
    have hc : Visualiser.callback rf bad s = (.thrown .outOfRange, ⟨topics, s.published⟩) := by
      unfold Visualiser.callback
      rw [hls, Act.forEach]
      unfold Act.bind
      rw [e]
    rw [List.nil_append, Visualiser.run, Act.forEach]
    unfold Act.bind
    rw [hc, List.append_nil]
  | @cons om msg maps msgs hm hrest ih =>
    cases om with
    | none =>
      simp only at hm
      have step : Visualiser.callback rf msg s = (.ok (), s) := by unfold Visualiser.callback; rw [hm]; rfl
      obtain ⟨t, p, a1, a2, a3, a4⟩ := ih s
      refine ⟨t, p, ?_, a2, a3, fun bad after h1 h2 h3 h4 h5 h6 => ?_⟩
      · rw [Visualiser.run, Act.forEach, Act.bind_ok step]; exact a1
      · obtain ⟨t', b⟩ := a4 bad after h1 h2 h3 h4 h5 h6
        exact ⟨t', by rw [List.cons_append, Visualiser.run, Act.forEach, Act.bind_ok step]; exact b⟩
    | some m =>
      obtain ⟨t1, p1, a1, a2, -, a4⟩ := C67_visualiser_partial rf (maps := [m]) (msgs := [msg]) (.cons hm .nil) s
      have step : Visualiser.callback rf msg s = (.ok (), ⟨t1, s.published ++ p1⟩) := by
        unfold Visualiser.run at a1
        simp only [Act.forEach, Act.bind, Act.pure] at a1
        rcases e : Visualiser.callback rf msg s with ⟨r, s'⟩
        rw [e] at a1
        cases r <;> simp_all
      obtain ⟨t2, p2, b1, b2, b3, b4⟩ := ih ⟨t1, s.published ++ p1⟩
      refine ⟨t2, p1 ++ p2, ?_, fun t => ?_, ?_, fun bad after h1 h2 h3 h4 h5 h6 => ?_⟩
      · rw [Visualiser.run, Act.forEach, Act.bind_ok step, ← List.append_assoc]; exact b1
      · rw [b2]
        rw [show (some m :: maps).filterMap id = m :: maps.filterMap id from rfl]
        simp only [a2, List.mem_cons, exists_eq_or_imp, or_assoc]
        simp
      · rw [show (some m :: maps).filterMap id = m :: maps.filterMap id from rfl, List.flatMap_cons]
        refine List.rel_append ?_ b3
        simpa using a4
      · obtain ⟨t', b⟩ := b4 bad after h1 h2 h3 h4 h5 h6
        refine ⟨t', ?_⟩
        rw [List.cons_append, Visualiser.run, Act.forEach, Act.bind_ok step, ← List.append_assoc]
        exact b

open Demo in
example : ∃ a pub topics, (twoLayers "x" "y" 3 4).toMessage = .ok a ∧
    Visualiser.run id ([{ Demo.msg with layers := [] }, a] ++ { Demo.msg with data := [] } :: [a]) ⟨[], []⟩ =
      (.thrown .outOfRange, ⟨topics, pub⟩) ∧ pub.length = 2 := by
  obtain ⟨a, a1, -⟩ := (twoLayers_sendable (k := "x") (l := "y") (by decide) 3 4).send
  obtain ⟨t, pub, h1, -, h3, h4⟩ := C67_visualiser_exact id (maps := [none, some (twoLayers "x" "y" 3 4)])
    (msgs := [{ Demo.msg with layers := [] }, a]) (.cons rfl (.cons ⟨twoLayers_sendable (by decide) _ _, a1⟩ .nil)) ⟨[], []⟩
  obtain ⟨t', h⟩ := h4 { Demo.msg with data := [] } [a] (by constructor <;> decide +kernel) (by decide +kernel) (by decide +kernel)
    (by decide +kernel) (by decide +kernel) (by decide +kernel)
  exact ⟨a, pub, t', a1, by simpa using h, h3.length_eq.symm⟩

/-! ## C89 -/

/-- The answers heard, depending on the state of the connection. -/
def heardFrom (link : Link) (rounds : List (RelayRound K)) : List (CostMapMsg K) :=
  match link with
  | .dropped => []
  | .alive => (rounds.takeWhile fun r => !r.lost && !r.service.isAbsent).filterMap fun r => r.service.answer?
  | .none => answersHeard rounds

theorem relayTool_run (rf : K → K) (rounds : List (RelayRound K)) (link : Link) (relay : Relay K) (n : Nat) :
    ∃ link' n', Act.forEach (RelayTool.step rf) rounds ⟨link, relay, n⟩ =
        ((Relay.run rf ((heardFrom link rounds).map some) relay).1,
          ⟨link', (Relay.run rf ((heardFrom link rounds).map some) relay).2, n'⟩) ∧
      n' + relay.published.length = n + (Relay.run rf ((heardFrom link rounds).map some) relay).2.published.length := by
  induction rounds generalizing link relay n with
  | nil => refine ⟨link, n, ?_⟩; cases link <;> exact ⟨rfl, rfl⟩
  | cons r rounds ih =>
    have silent : ∀ link1, RelayTool.step rf r ⟨link, relay, n⟩ = (.ok (), ⟨link1, relay, n⟩) →
        heardFrom link (r :: rounds) = heardFrom link1 rounds →
        ∃ link' n', Act.forEach (RelayTool.step rf) (r :: rounds) ⟨link, relay, n⟩ =
        ((Relay.run rf ((heardFrom link (r :: rounds)).map some) relay).1,
          ⟨link', (Relay.run rf ((heardFrom link (r :: rounds)).map some) relay).2, n'⟩) ∧
      n' + relay.published.length = n + (Relay.run rf ((heardFrom link (r :: rounds)).map some) relay).2.published.length := by
      intro link1 h1 h2
      rw [Act.forEach, Act.bind_ok h1, h2]
      exact ih link1 relay n
    have loud : ∀ msg, RelayTool.call link r = (.alive, some msg) → heardFrom link (r :: rounds) = msg :: heardFrom .alive rounds →
        ∃ link' n', Act.forEach (RelayTool.step rf) (r :: rounds) ⟨link, relay, n⟩ =
        ((Relay.run rf ((heardFrom link (r :: rounds)).map some) relay).1,
          ⟨link', (Relay.run rf ((heardFrom link (r :: rounds)).map some) relay).2, n'⟩) ∧
      n' + relay.published.length = n + (Relay.run rf ((heardFrom link (r :: rounds)).map some) relay).2.published.length := by
      intro msg h1 h2
      rw [h2, List.map_cons, Relay.run, Act.forEach, Act.forEach]
      have same : (Relay.step rf (some msg) relay).1 ≠ .ok () →
          (Relay.step rf (some msg) relay).2.published = relay.published := by
        unfold Relay.step
        simp only
        intro hne
        rcases e : fromMessage msg (CostMap.new []) with ⟨r, m⟩
        rw [e] at hne
        cases r <;> simp only at hne ⊢
        rename_i b
        split at hne <;> simp_all
      have more : (Relay.step rf (some msg) relay).1 = .ok () →
          (Relay.step rf (some msg) relay).2.published.length = relay.published.length + 1 := by
        unfold Relay.step
        simp only
        intro hne
        rcases e : fromMessage msg (CostMap.new []) with ⟨r, m⟩
        rw [e] at hne
        cases r <;> simp only at hne ⊢ <;> try exact absurd hne (by simp)
        rename_i b
        split at hne <;> simp_all
      unfold Act.bind
      have hstep : RelayTool.step rf r ⟨link, relay, n⟩ = (match (Relay.step rf (some msg) relay).1 with
          | .ok _ => (.ok (), ⟨.alive, (Relay.step rf (some msg) relay).2, n + 1⟩)
          | e => (e, ⟨.alive, (Relay.step rf (some msg) relay).2, n⟩)) := by
        unfold RelayTool.step
        simp only [h1]
        cases (Relay.step rf (some msg) relay).1 <;> rfl
      rw [hstep]
      rcases e : Relay.step rf (some msg) relay with ⟨x, relay'⟩
      rw [e] at same more
      cases x with
      | ok _ =>
        simp only
        obtain ⟨link', n', a1, a2⟩ := ih .alive relay' (n + 1)
        have := more rfl
        simp only at this
        exact ⟨link', n', a1, by unfold Relay.run at a2; omega⟩
      | thrown _ => exact ⟨.alive, n, rfl, by simp only; rw [same (by simp)]⟩
      | assertFail => exact ⟨.alive, n, rfl, by simp only; rw [same (by simp)]⟩
      | ub => exact ⟨.alive, n, rfl, by simp only; rw [same (by simp)]⟩
      | outOfFuel => exact ⟨.alive, n, rfl, by simp only; rw [same (by simp)]⟩
    obtain ⟨lost, service⟩ := r
    cases link with
    | dropped => exact silent .dropped rfl rfl
    | none =>
      cases service with
      | absent => exact silent .none rfl (by simp [heardFrom, answersHeard, Service.isAbsent])
      | refuses => exact silent .alive rfl (by simp [heardFrom, answersHeard, Service.isAbsent, Service.answer?])
      | answers msg => exact loud msg rfl (by simp [heardFrom, answersHeard, Service.isAbsent, Service.answer?])
    | alive =>
      cases lost with
      | true => exact silent .dropped rfl (by simp [heardFrom])
      | false =>
        cases service with
        | absent => exact silent .dropped rfl (by simp [heardFrom, Service.isAbsent])
        | refuses => exact silent .alive rfl (by simp [heardFrom, Service.isAbsent, Service.answer?])
        | answers msg => exact loud msg rfl (by simp [heardFrom, Service.isAbsent, Service.answer?])

/-- C89, for every history of the service whose answers come from maps: what is relayed is exactly the answers from the first round in
which the service is there until the connection is lost (`answersHeard`), each with the layer of C66 (`shownWith`), up to the first map that
does not have it, which ends the tool with an exception. It sleeps once per published grid. -/
theorem C89_relay_exact (rf : K → K) (asked : String) {maps : List (CostMap K)} {rounds : List (RelayRound K)}
    (h : List.Forall₂ (fun m msg => Sendable m ∧ m.toMessage = .ok msg) maps (answersHeard rounds)) :
    ∃ r s, RelayTool.main rf true rounds (.start asked) = (r, s) ∧
      List.Forall₂ (fun p g => p.1.toOccupancyGrid rf p.2 [] = .ok g) ((shownWith asked maps).takeWhile hasLayer) s.relay.published ∧
      s.sleeps = s.relay.published.length ∧
      ((∀ p ∈ shownWith asked maps, p.2 ∈ p.1.layers) → r = .ok 0) ∧
      ((∃ p ∈ shownWith asked maps, p.2 ∉ p.1.layers) → r = .thrown .outOfRange) := by
  obtain ⟨r, layer, gs, h1, h2, h3, h4⟩ := C66_relay_exact rf asked (maps := maps.map some)
    (replies := (answersHeard rounds).map some) (by
      rw [List.forall₂_map_left_iff, List.forall₂_map_right_iff]
      exact h.imp fun m msg ⟨a, b⟩ => ⟨a, msg, b, rfl⟩) []
  have hid : (maps.map some).filterMap id = maps := by simp
  rw [hid] at h2 h3 h4
  obtain ⟨link', n', a1, a2⟩ := relayTool_run rf rounds .none ⟨asked, []⟩ 0
  rw [show heardFrom .none rounds = answersHeard rounds from rfl, h1] at a1 a2
  simp only [List.nil_append, List.length_nil, Nat.add_zero, Nat.zero_add] at a1 a2
  refine ⟨r.map fun _ => 0, ⟨link', ⟨layer, gs⟩, n'⟩, ?_, h2, a2, fun h => by rw [h3 h]; rfl, fun h => by rw [h4 h]; rfl⟩
  unfold RelayTool.main RelayTool.start
  rw [if_pos rfl]
  unfold Act.bind
  rw [a1]
  cases r <;> rfl

open Demo in
/-- The service appears late, answers twice, is restarted, and answers again. -/
example : ∃ a s, (one "x" 3).toMessage = .ok a ∧
    RelayTool.main id true [⟨false, .absent⟩, ⟨true, .answers a⟩, ⟨false, .refuses⟩, ⟨false, .answers a⟩, ⟨true, .answers a⟩, ⟨false, .answers a⟩]
      (.start "y") = (.ok 0, s) ∧ s.relay.published.length = 2 ∧ s.sleeps = 2 := by
  obtain ⟨a, a1, -⟩ := (one_sendable "x" 3).send
  obtain ⟨r, s, h1, h2, h3, h4, -⟩ := C89_relay_exact id "y" (maps := [one "x" 3, one "x" 3])
    (rounds := [⟨false, .absent⟩, ⟨true, .answers a⟩, ⟨false, .refuses⟩, ⟨false, .answers a⟩, ⟨true, .answers a⟩, ⟨false, .answers a⟩])
    (.cons ⟨one_sendable _ _, a1⟩ (.cons ⟨one_sendable _ _, a1⟩ .nil))
  have := h4 (by decide)
  subst this
  have hl := h2.length_eq.symm
  exact ⟨a, s, a1, h1, hl, h3.trans hl⟩

end CostMapModel

import Verif.Spec.RemoteCopy
import Verif.Props.MachineConversions
import Verif.Props.Accumulate
import Verif.Props.Message

/-!
# A map on a topic: C112
-/

set_option linter.unusedSectionVars false

namespace CostMapModel
open CostMap

section
variable {K : Type} [Field K] [LinearOrder K] [IsStrictOrderedRing K] [FloorRing K]

theorem at_beyond {m : CostMap K} (hc : m.Coherent) {l : String} (hl : l ∈ m.layers) {i : Idx} (hi : ¬ i.In m.size) : m.at l i = .ub := by
  obtain ⟨a, ha⟩ := Option.isSome_iff_exists.1 ((hc.mem_iff l).1 hl)
  unfold CostMap.at
  rw [ha]
  have : a.get? i.x i.y = none := by
    rw [Mat.get?_eq_none_iff]
    obtain ⟨d1, d2⟩ := hc.dims l a ha
    intro h
    apply hi
    unfold Mat.InRange at h
    rw [d1, d2] at h
    exact ⟨h.1, h.2.1, h.2.2.1, h.2.2.2⟩
  dsimp only
  rw [this]
  rfl

/-- A message that gives the map `m` in an empty map shows it in every other map. -/
theorem message_into {msg : CostMapMsg K} {m e : CostMap K} (hm : m.Coherent) (h : fromMessage msg (CostMap.new []) = (.ok true, m))
    (hx : msg.resolution / 2 ≤ msg.lengthX) (he : e.Coherent) :
    ∃ c, fromMessage msg e = (.ok true, c) ∧ c.Coherent ∧ CopyOf m e.layers c := by
  have hn := new_coherent (K := K) (ls := []) (by simp)
  have hok := (C50_returns_iff_partial hn msg hx).1 ⟨true, by rw [h]⟩
  obtain ⟨b, hb⟩ := (C50_returns_iff_partial he msg hx).2 hok
  obtain ⟨c, e1⟩ : ∃ c, fromMessage msg e = (.ok b, c) := ⟨_, Prod.ext hb rfl⟩
  have hcnt : msg.layers.length = msg.data.length := by
    obtain ⟨-, ⟨h1, -⟩ | ⟨-, h1, -⟩⟩ := fromMessage_inv h
    · cases h1
    · exact h1
  have hb : b = true := by
    obtain ⟨-, ⟨-, h1, -⟩ | ⟨h1, -⟩⟩ := fromMessage_inv e1
    · exact absurd hcnt h1
    · exact h1
  subst hb
  obtain ⟨-, -, a3, -, a5, a6, a7, a8, a9, a10, a11, a12⟩ := C49_from_message_partial hn h
  obtain ⟨b1, b2, b3, b4, b5, b6, b7, b8, b9, b10, b11, b12⟩ := C49_from_message_partial he e1
  have hml := (C49_into_empty_map ⟨hn, rfl⟩ h).2
  have hcl : ∀ l, l ∈ c.layers ↔ l ∈ m.layers ∨ l ∈ e.layers := fun l => by
    rw [b1.mem_iff, hml, he.mem_iff]
    exact (b2 l).trans or_comm
  refine ⟨c, e1, b1, b11.trans a11.symm, b12.trans a12.symm, b10.trans a10.symm,
    ⟨b8.trans a8.symm, b6.trans a6.symm, b7.trans a7.symm, b5.trans a5.symm, b9.trans a9.symm⟩, hcl, fun l hl i => ?_, fun l hl hl' i hi => ?_⟩
  · have sz : c.size = m.size := b5.trans a5.symm
    by_cases hi : i.In m.size
    · obtain ⟨x, x1, x2⟩ := a3 l ((hml l).1 hl)
      obtain ⟨y, y1, y2⟩ := b3 l ((hml l).1 hl)
      cases x1.symm.trans y1
      obtain ⟨v, v1, v2⟩ := x2 i hi
      obtain ⟨w, w1, w2⟩ := y2 i (by rw [sz]; exact hi)
      rw [sz, v1] at w1
      cases w1
      rw [v2, w2]
    · rw [at_beyond hm hl hi, at_beyond b1 ((hcl l).2 (.inl hl)) (by rw [sz]; exact hi)]
  · refine b4 l ((he.mem_iff l).1 (((hcl l).1 hl).resolve_left hl')) (fun h => hl' ((hml l).2 h)) i ?_
    rw [b5, ← a5]
    exact hi

/-- The same on the machine, for the message of a map in a world. -/
theorem messageI_into {w : World K} {rd : K → K} (hrd : DoublePrecision rd) {m : CostMap K} (hm : InWorld w rd m)
    (ht : m.timestamp < 2 ^ 32 * 10 ^ 9) (sx : m.startIndex.x < 2 ^ 16) (sy : m.startIndex.y < 2 ^ 16) :
    ∃ msg, m.toMessage = .ok msg ∧ ∀ e : CostMap K, e.Coherent →
      ∃ c, fromMessageI rd msg e = (.ok true, c) ∧ InWorld w rd c ∧ CopyOf m e.layers c := by
  have hs := hm.small
  have hg := hm.geo
  set L0 : Vec K := ⟨m.size.x * m.resolution, m.size.y * m.resolution⟩ with hL0
  obtain ⟨msg0, a1, a2⟩ := C48_message_round_trip_partial (geo_withLength hg) (coherent_withLength _ hm.coherent) ht
    (by have := hs.x; show m.size.x < _; omega) (by have := hs.y; show m.size.y < _; omega) sx sy
  have key : ∃ msg, m.toMessage = .ok msg ∧ msg0 = { msg with lengthX := L0.x, lengthY := L0.y } ∧ msg.lengthX = m.length.x ∧
      msg.lengthY = m.length.y ∧ msg.resolution = m.resolution := by
    simp only [toMessage, layerArrays_withLength] at a1 ⊢
    change (stampOf m.timestamp).bind (fun t => (m.layerArrays m.layers).bind _) = _ at a1
    cases h1 : stampOf m.timestamp with
    | ok t =>
      rw [h1, Res.bind_ok] at a1
      cases h2 : m.layerArrays m.layers with
      | ok as =>
        rw [h2, Res.bind_ok] at a1
        cases a1
        exact ⟨_, rfl, rfl, rfl, rfl, rfl⟩
      | _ => rw [h2] at a1; cases a1
    | _ => rw [h1] at a1; cases a1
  obtain ⟨msg, b1, b2, b3, b4, b5⟩ := key
  refine ⟨msg, b1, fun e he => ?_⟩
  have hs1 := hs.x
  have hs2 := hs.y
  obtain ⟨cx, dx⟩ := cells_of_length hrd hg.res_pos hg.size_x (by omega)
  obtain ⟨cy, dy⟩ := cells_of_length hrd hg.res_pos hg.size_y (by omega)
  have px : (1 : K) ≤ m.size.x := by exact_mod_cast hg.size_x
  have py : (1 : K) ≤ m.size.y := by exact_mod_cast hg.size_y
  have r0 := hg.res_pos
  rw [← hg.len_x] at cx dx
  rw [← hg.len_y] at cy dy
  have q : ∀ k : Int, 0 ≤ k → roundHalfAway ((k : K) * m.resolution / m.resolution) = k := fun k hk => by
    rw [mul_div_cancel_right₀ _ hg.res_pos.ne']; exact roundHalfAway_intCast _ hk
  have len : ∀ {n : Int} {L : K}, 0 < n → n ≤ 2 ^ 29 → L = rd (n * m.resolution) → L ≤ 2 ^ 30 * m.resolution := by
    intro n L h0 h1 h2
    have n0 : (0 : K) ≤ n := by exact_mod_cast h0.le
    have n1 : (n : K) ≤ 2 ^ 29 := by exact_mod_cast h1
    have e := hrd.le (n * m.resolution)
    rw [abs_of_nonneg (mul_nonneg n0 r0.le)] at e
    have := mul_le_mul_of_nonneg_right n1 r0.le
    rw [h2]
    linarith [le_abs_self (rd (n * m.resolution))]
  have hn : NoLayers (CostMap.new [] : CostMap K) := ⟨new_coherent (by simp), rfl⟩
  obtain ⟨c, c1, c2, c3⟩ := message_into (coherent_withLength L0 hm.coherent) (a2 _ hn) (by
    rw [b2]
    show msg.resolution / 2 ≤ m.size.x * m.resolution
    rw [b5]
    have := mul_le_mul_of_nonneg_right px r0.le
    linarith) he
  have hlen : (⟨rd ((m.size.x : K) * msg.resolution), rd ((m.size.y : K) * msg.resolution)⟩ : Vec K) = m.length := by
    rw [b5, ← hg.len_x, ← hg.len_y]
  refine ⟨withLength m.length c, ?_, ?_, ?_⟩
  · rw [fromMessageI_eq hrd (by rw [b3, b5]; exact len hg.size_x hs.x hg.len_x) (by rw [b4, b5]; exact len hg.size_y hs.y hg.len_y),
      fromMessageRd_eq (n := m.size) (len' := L0) (by rw [b3]; exact cx) (by rw [b4]; exact cy) (by rw [b5]; exact r0)
      (by rw [b3, b5]; exact dx) (by rw [b4, b5]; exact dy) (show 0 < _ from by show (0 : K) < m.size.x * m.resolution; positivity)
      (show 0 < _ from by show (0 : K) < m.size.y * m.resolution; positivity)
      (by rw [b5]; exact q _ hg.size_x.le) (by rw [b5]; exact q _ hg.size_y.le), ← b2, c1, hlen]
  · have g : SameGeometry m (withLength m.length c) :=
      ⟨rfl, c3.geometry.resolution, c3.geometry.position, c3.geometry.size, c3.geometry.startIndex⟩
    exact InWorld.congr g hm (coherent_withLength _ c2)
  · exact ⟨c3.frameId, c3.timestamp, c3.basicLayers,
      ⟨rfl, c3.geometry.resolution, c3.geometry.position, c3.geometry.size, c3.geometry.startIndex⟩, c3.layers, c3.costs, c3.unknown⟩

/-- The message shows the map `m` wherever it is read. -/
def Carries (w : World K) (F : Fmt K) (rf : K → K) (msg : CostMapMsg K) (m : CostMap K) : Prop :=
  HeldI w F rf m ∧ ∀ e : CostMap K, e.Coherent → ∃ c, fromMessageI F.rd msg e = (.ok true, c) ∧ InWorld w F.rd c ∧ CopyOf m e.layers c

/-- How the programs and the observer are related. -/
structure Follows (w : World K) (F : Fmt K) (rf : K → K) (t : RemoteTopic K) (s : Snapshots K) : Prop where
  map : t.map = s.map
  held : HeldI w F rf s.map
  queue : List.Forall₂ (Carries w F rf) t.queue s.underway
  coherent : t.copy.Coherent
  fresh : s.arrived = [] → t.copy = CostMap.new []
  names : ∀ l, l ∈ t.copy.layers ↔ l ∈ s.arrived.flatMap (·.layers)
  copy : ∀ m, s.arrived.getLast? = some m → HeldI w F rf m ∧ InWorld w F.rd t.copy ∧ CopyOf m (s.arrived.flatMap (·.layers)) t.copy
  order : (s.arrived ++ s.underway).Sublist s.published

theorem forall₂_eraseIdx {α β : Type} {R : α → β → Prop} : ∀ {xs : List α} {ys : List β} (k : Nat), List.Forall₂ R xs ys →
    List.Forall₂ R (xs.eraseIdx k) (ys.eraseIdx k)
  | _, _, _, .nil => by simp
  | _, _, 0, .cons _ h => h
  | _, _, k + 1, .cons h1 h => .cons h1 (forall₂_eraseIdx k h)

theorem follows_step {w : World K} {F : Fmt K} {rf : K → K} (hrd : DoublePrecision F.rd) (hF : IntsExact F.rd)
    (htop : 2 ^ 31 ≤ F.top) {t : RemoteTopic K} {s : Snapshots K} (h : Follows w F rf t s) {e : RemoteEvent K}
    (hf : match e with
      | .call c => w.Fits F rf s.map c ∧ (c.run F rf s.map).1 ≠ .assertFail
      | .publish => s.map.timestamp < 2 ^ 32 * 10 ^ 9 ∧ s.map.size.x ≤ 65536 ∧ s.map.size.y ≤ 65536
      | _ => True) :
    ∃ t', e.run F rf t = (.ok (), t') ∧ Follows w F rf t' (s.step F rf e) := by
  cases e with
  | call c =>
    obtain ⟨hf, ha⟩ := hf
    have hd := C101_defined_partial hrd hF htop h.held c hf
    have hm := h.map
    unfold RemoteEvent.run Snapshots.step
    dsimp only
    rw [hm]
    cases hr : c.run F rf s.map with
    | mk r m =>
      rw [hr] at hd ha
      cases r with
      | ok u => exact ⟨_, rfl, rfl, .returned c h.held hf hr, h.queue, h.coherent, h.fresh, h.names, h.copy, h.order⟩
      | thrown x => exact ⟨_, rfl, rfl, .threw c x h.held hf hr, h.queue, h.coherent, h.fresh, h.names, h.copy, h.order⟩
      | assertFail => exact absurd rfl ha
      | ub => exact absurd hd (by simp [Res.Defined])
      | outOfFuel => exact absurd hd (by simp [Res.Defined])
  | publish =>
    obtain ⟨h1, h2, h3⟩ := hf
    have hw := held_inWorld hrd hF htop h.held
    obtain ⟨-, sx, -, sy⟩ := hw.geo.start
    obtain ⟨msg, e1, e2⟩ := messageI_into hrd hw h1 (by omega) (by omega)
    refine ⟨{ t with queue := t.queue ++ [msg] }, ?_, h.map, h.held, ?_, h.coherent, h.fresh, h.names, h.copy, ?_⟩
    · unfold RemoteEvent.run
      dsimp only
      rw [h.map, e1]
    · exact List.rel_append h.queue (.cons ⟨h.held, e2⟩ .nil)
    · show (s.arrived ++ (s.underway ++ [s.map])).Sublist (s.published ++ [s.map])
      rw [← List.append_assoc]
      exact h.order.append (List.Sublist.refl _)
  | deliver =>
    have hq := h.queue
    unfold RemoteEvent.run Snapshots.step
    dsimp only
    cases hq' : t.queue with
    | nil =>
      rw [hq'] at hq
      cases hu : s.underway with
      | nil => exact ⟨t, rfl, h⟩
      | cons _ _ => rw [hu] at hq; cases hq
    | cons msg rest =>
      rw [hq'] at hq
      cases hu : s.underway with
      | nil => rw [hu] at hq; cases hq
      | cons m ms =>
        rw [hu] at hq
        cases hq with
        | cons hc hq =>
          obtain ⟨hm, hc⟩ := hc
          obtain ⟨c, e1, e2, e3⟩ := hc t.copy h.coherent
          have e4 : Call.discard (fromMessageI F.rd msg) t.copy = (.ok (), c) := discard_ok e1
          refine ⟨{ t with queue := rest, copy := c }, ?_, h.map, h.held, hq, e2.coherent, ?_, ?_, ?_, ?_⟩
          · dsimp only
            rw [e4]
          · intro h; simp at h
          · intro l
            show l ∈ c.layers ↔ l ∈ (s.arrived ++ [m]).flatMap (·.layers)
            rw [e3.layers l, h.names l]
            simp [or_comm]
          · intro m' hm'
            have hm' : (s.arrived ++ [m]).getLast? = some m' := hm'
            rw [List.getLast?_concat] at hm'
            cases hm'
            refine ⟨hm, e2, e3.frameId, e3.timestamp, e3.basicLayers, e3.geometry, fun l => ?_, e3.costs, e3.unknown⟩
            show l ∈ c.layers ↔ l ∈ m.layers ∨ l ∈ (s.arrived ++ [m]).flatMap (·.layers)
            rw [e3.layers l, h.names l]
            simp only [List.flatMap_append, List.mem_append, List.flatMap_singleton]
            exact ⟨fun h => h.imp_right .inl, fun h => h.elim .inl fun h => h.elim .inr .inl⟩
          · show (s.arrived ++ [m] ++ ms).Sublist s.published
            have := h.order
            rw [hu] at this
            simpa using this
  | lose k =>
    refine ⟨_, rfl, h.map, h.held, forall₂_eraseIdx k h.queue, h.coherent, h.fresh, h.names, h.copy, ?_⟩
    exact ((List.Sublist.refl _).append (List.eraseIdx_sublist _ _)).trans h.order

theorem follows_run {w : World K} {F : Fmt K} {rf : K → K} (hrd : DoublePrecision F.rd) (hF : IntsExact F.rd) (htop : 2 ^ 31 ≤ F.top) :
    ∀ {es : List (RemoteEvent K)} {t : RemoteTopic K} {s : Snapshots K}, Follows w F rf t s → s.Fits w F rf es →
      ∃ t', Act.forEach (RemoteEvent.run F rf) es t = (.ok (), t') ∧ Follows w F rf t' (es.foldl (Snapshots.step F rf) s)
  | [], t, s, h, _ => ⟨t, rfl, h⟩
  | e :: es, t, s, h, hf => by
    obtain ⟨t1, e1, h1⟩ := follows_step hrd hF htop h (e := e) hf.1
    obtain ⟨t2, e2, h2⟩ := follows_run hrd hF htop (es := es) h1 hf.2
    refine ⟨t2, ?_, h2⟩
    show Act.bind (RemoteEvent.run F rf e) (fun _ => Act.forEach (RemoteEvent.run F rf) es) t = _
    rw [Act.bind_ok e1]
    exact e2

/-- C112. A map is published from time to time while any calls change it; messages arrive late or not at all, and are read into one map.
Whatever happens in whatever order, nothing is undefined and nobody is stopped. What has arrived are published maps, in the order of
publishing, none of them twice. As long as nothing has arrived, the copy is empty; afterwards it shows the last map that has arrived: its
frame, time, placement, basic layers and the costs of its layers. Layers of earlier maps may be there besides; they know nothing. -/
theorem C112_copy {w : World K} {F : Fmt K} {rf : K → K} (hrd : DoublePrecision F.rd) (hF : IntsExact F.rd) (htop : 2 ^ 31 ≤ F.top)
    {m : CostMap K} (hm : HeldI w F rf m) {es : List (RemoteEvent K)} (hes : Snapshots.Fits w F rf ⟨m, [], [], []⟩ es) :
    ∃ t s, Act.forEach (RemoteEvent.run F rf) es ⟨m, [], CostMap.new []⟩ = (.ok (), t) ∧
      s = es.foldl (Snapshots.step F rf) ⟨m, [], [], []⟩ ∧ t.map = s.map ∧ HeldI w F rf t.map ∧ t.queue.length = s.underway.length ∧
      (s.arrived ++ s.underway).Sublist s.published ∧ (s.arrived = [] → t.copy = CostMap.new []) ∧
      ∀ last, s.arrived.getLast? = some last →
        HeldI w F rf last ∧ InWorld w F.rd t.copy ∧ CopyOf last (s.arrived.flatMap (·.layers)) t.copy := by
  have hn := new_coherent (K := K) (ls := []) (by simp)
  obtain ⟨t, e, h⟩ := follows_run (w := w) (rf := rf) hrd hF htop (es := es) (t := ⟨m, [], CostMap.new []⟩) (s := ⟨m, [], [], []⟩)
    ⟨rfl, hm, .nil, hn, fun _ => rfl, fun l => by simp [CostMap.new], fun _ h => by simp at h, List.Sublist.refl _⟩ hes
  exact ⟨t, _, e, rfl, h.map, by rw [h.map]; exact h.held, h.queue.length_eq, h.order, h.fresh, h.copy⟩

/-- C112. If no message is lost, every published map has arrived or is underway. -/
theorem C112_all_arrive (F : Fmt K) (rf : K → K) : ∀ (es : List (RemoteEvent K)) (s : Snapshots K), (∀ e ∈ es, ∀ k, e ≠ .lose k) →
    s.arrived ++ s.underway = s.published →
    let s' := es.foldl (Snapshots.step F rf) s
    s'.arrived ++ s'.underway = s'.published
  | [], _, _, h => h
  | e :: es, s, hl, h => by
    refine C112_all_arrive F rf es (s.step F rf e) (fun e' he => hl e' (by simp [he])) ?_
    cases e with
    | call c => exact h
    | publish =>
      show s.arrived ++ (s.underway ++ [s.map]) = s.published ++ [s.map]
      rw [← h, List.append_assoc]
    | deliver =>
      unfold Snapshots.step
      dsimp only
      cases hu : s.underway with
      | nil => exact h
      | cons m ms =>
        rw [hu] at h
        show s.arrived ++ [m] ++ ms = s.published
        rw [← h]
        simp
    | lose k => exact absurd rfl (hl _ (by simp) k)

/-- C112. The copy catches up: if no message is lost and all have arrived, it shows the map as it was when it was last published. -/
theorem C112_catches_up {w : World K} {F : Fmt K} {rf : K → K} (hrd : DoublePrecision F.rd) (hF : IntsExact F.rd) (htop : 2 ^ 31 ≤ F.top)
    {m : CostMap K} (hm : HeldI w F rf m) {es : List (RemoteEvent K)} (hes : Snapshots.Fits w F rf ⟨m, [], [], []⟩ es)
    (hl : ∀ e ∈ es, ∀ k, e ≠ .lose k) :
    ∃ t s, Act.forEach (RemoteEvent.run F rf) es ⟨m, [], CostMap.new []⟩ = (.ok (), t) ∧
      s = es.foldl (Snapshots.step F rf) ⟨m, [], [], []⟩ ∧
      (t.queue = [] → ∀ last, s.published.getLast? = some last → CopyOf last (s.published.flatMap (·.layers)) t.copy) := by
  obtain ⟨t, s, e, hs, -, -, hq, -, -, hc⟩ := C112_copy hrd hF htop hm hes
  refine ⟨t, s, e, hs, fun h0 last h1 => ?_⟩
  have ha := C112_all_arrive F rf es ⟨m, [], [], []⟩ hl rfl
  dsimp only at ha
  rw [← hs] at ha
  have hu : s.underway = [] := by
    rw [h0] at hq
    exact List.length_eq_zero_iff.1 hq.symm
  rw [hu, List.append_nil] at ha
  rw [ha] at hc
  exact (hc last h1).2.2

/-- C112. Whoever looks a position up in the copy gets the answer that the map gave. -/
theorem C112_lookup {s c : CostMap K} {older : List String} (h : CopyOf s older c) (rd : K → K) (p : Vec K) :
    c.isInsideRd rd p = s.isInsideRd rd p ∧ ∀ l ∈ s.layers, c.atPositionI rd l p = s.atPositionI rd l p := by
  have hi : c.isInsideRd rd p = s.isInsideRd rd p := by
    unfold isInsideRd
    rw [h.geometry.length, h.geometry.position]
  refine ⟨hi, fun l hl => ?_⟩
  have hx : c.getIndexI rd p = s.getIndexI rd p := by
    unfold getIndexI
    rw [h.geometry.length, h.geometry.position, h.geometry.resolution, h.geometry.size, h.geometry.startIndex]
  unfold atPositionI
  rw [hx]
  cases s.getIndexI rd p with
  | none => rfl
  | some q =>
    obtain ⟨i, b⟩ := q
    cases b
    · rfl
    · exact h.costs l hl i

end

namespace Demo

/-- The map is published; a layer is erased and another one added; it is published twice more, and the second message is lost. -/
def busy : List (RemoteEvent ℚ) := [.publish, .call (.plain (.addConst "b" 7)), .deliver, .publish, .call (.plain (.erase "a")),
  .call (.plain (.clear "c")), .publish, .lose 0, .deliver, .call (.plain (.addConst "d" 0))]

theorem busy_fits : Snapshots.Fits hundred binary64 toFloat ⟨tenths, [], [], []⟩ busy := by
  refine ⟨?_, ?_, ?_, ?_, ?_, ?_, ?_, ?_, ?_, ?_, trivial⟩
  · dsimp only; decide +kernel
  · exact ⟨trivial, by decide +kernel⟩
  · trivial
  · dsimp only; decide +kernel
  · exact ⟨trivial, by decide +kernel⟩
  · exact ⟨trivial, by decide +kernel⟩
  · dsimp only; decide +kernel
  · trivial
  · trivial
  · exact ⟨trivial, by decide +kernel⟩

end Demo

-- The copy ends with the layer "b" of the last map, and with "a", of which it knows nothing.
example : ∃ (t : RemoteTopic ℚ), Act.forEach (RemoteEvent.run binary64 toFloat) Demo.busy ⟨Demo.tenths, [], CostMap.new []⟩ = (.ok (), t) ∧
    t.copy.at "b" ⟨3, 2⟩ = .ok 7 ∧ t.copy.at "a" ⟨3, 2⟩ = .ok NO_INFORMATION := by
  obtain ⟨t, s, e, hs, -, -, -, -, -, h⟩ := C112_copy (F := binary64) toDouble_precision toDouble_ints Demo.top64 Demo.tenths_held Demo.busy_fits
  have k : ∃ last, s.arrived.getLast? = some last ∧ "b" ∈ last.layers ∧ last.at "b" ⟨3, 2⟩ = .ok 7 ∧ "a" ∉ last.layers ∧
      "a" ∈ s.arrived.flatMap (·.layers) ∧ (⟨3, 2⟩ : Idx).In last.size := by
    subst hs
    refine ⟨((Demo.busy.foldl (Snapshots.step binary64 toFloat) ⟨Demo.tenths, [], [], []⟩).arrived.getLast?).get (by decide +kernel),
      (Option.some_get _).symm, by decide +kernel, by decide +kernel, by decide +kernel, by decide +kernel, by decide +kernel⟩
  obtain ⟨last, h1, h2, h3, h4, h5, h6⟩ := k
  obtain ⟨-, -, hc⟩ := h last h1
  exact ⟨t, e, (hc.costs _ h2 _).trans h3, hc.unknown _ ((hc.layers _).2 (.inr h5)) h4 _ h6⟩

-- One message, which arrives after another layer was added: the copy answers as the map did when it was published.
example : ∃ (t : RemoteTopic ℚ), Act.forEach (RemoteEvent.run binary64 toFloat) [.publish, .call (.plain (.addConst "b" 7)), .deliver]
      ⟨Demo.tenths, [], CostMap.new []⟩ = (.ok (), t) ∧ (t.queue = [] → t.copy.atPositionI toDouble "a" ⟨1 / 10, -3 / 10⟩ = .ok 36) := by
  obtain ⟨t, s, e, hs, h⟩ := C112_catches_up (F := binary64) (rf := toFloat) toDouble_precision toDouble_ints Demo.top64 Demo.tenths_held
    (es := [.publish, .call (.plain (.addConst "b" 7)), .deliver])
    ⟨by dsimp only; decide +kernel, ⟨trivial, by decide +kernel⟩, trivial, trivial⟩ (by simp)
  refine ⟨t, e, fun hq => ?_⟩
  have h0 := h hq Demo.tenths (by rw [hs]; rfl)
  exact ((C112_lookup h0 toDouble _).2 "a" (by decide +kernel)).trans (by decide +kernel)

end CostMapModel

import Verif.Spec.Tools
import Verif.Props.Streams
import Verif.Props.Programs

/-!
# Properties C87, C88 and C89: the command line tools
-/

set_option linter.unusedSectionVars false

namespace CostMapModel
open CostMap
variable {K : Type} [Field K] [LinearOrder K] [IsStrictOrderedRing K] [FloorRing K]

/-! ## C87 -/

theorem waiting_one {α : Type} (l : List α) : waiting 1 l = l.getLast?.toList := by
  rcases List.eq_nil_or_concat l with rfl | ⟨l, a, rfl⟩
  · rfl
  · unfold waiting
    simp

theorem Writable.apply_same (w : Writable) (files : Files K) : w.apply files files = files := by
  unfold Writable.apply
  simp

/-- One round. -/
theorem saveRound (txt : K → K) (w : Writable) (files : Files K) (arrived : List (CostMapMsg K)) :
    ((∀ msg ∈ arrived.getLast?, Refused msg) ∧
      Act.forEach (SaveTool.callback txt w) (waiting 1 arrived) (.new files) = (.ok (), .new files)) ∨
    (∃ msg m files', arrived.getLast? = some msg ∧ Converts msg m ∧ m.toImageBundle txt files = .ok files' ∧
      Act.forEach (SaveTool.callback txt w) (waiting 1 arrived) (.new files) = (.ok (), ⟨true, w.apply files files', [m]⟩)) ∨
    (∃ msg r, arrived.getLast? = some msg ∧ (fromMessage msg (CostMap.new [])).1.map (fun _ => ()) = r ∧ r ≠ .ok () ∧
      Act.forEach (SaveTool.callback txt w) (waiting 1 arrived) (.new files) = (r, .new files)) := by
  rw [waiting_one]
  cases e : arrived.getLast? with
  | none => exact .inl ⟨by simp, rfl⟩
  | some msg =>
    have one : ∀ s, Act.forEach (SaveTool.callback txt w) (some msg).toList s = SaveTool.callback txt w msg s := by
      intro s
      simp only [Option.toList, Act.forEach, Act.bind, Act.pure]
      rcases SaveTool.callback txt w msg s with ⟨r, s'⟩
      cases r <;> rfl
    simp only [one, SaveTool.callback]
    rcases e1 : fromMessage msg (CostMap.new []) with ⟨r, m⟩
    have other : ∀ r' : Res Unit, r' ≠ .ok () → r.map (fun _ => ()) = r' → SaveNode.callback txt msg (.new files) = (r', .new files) →
        ∃ msg' r, some msg = some msg' ∧ (fromMessage msg' (CostMap.new [])).1.map (fun _ => ()) = r ∧ r ≠ .ok () ∧
        ((SaveNode.callback txt msg (.new files)).1,
          { (SaveNode.callback txt msg (.new files)).2 with
            files := w.apply (SaveNode.new files).files (SaveNode.callback txt msg (.new files)).2.files }) = (r, .new files) := by
      intro r' h h1 h2
      refine ⟨msg, r', rfl, by rw [e1]; exact h1, h, ?_⟩
      rw [h2]
      simp only [SaveNode.new, Writable.apply_same]
    have nf : ¬ (SaveNode.new files).finished = true := by simp [SaveNode.new]
    cases r with
    | ok b =>
      rcases saveCallback_cases txt msg files with ⟨h1, h2⟩ | ⟨m', files', h1, h2, h3⟩ | ⟨r, h1, -⟩
      · refine .inl ⟨by simpa using h1, ?_⟩
        rw [h2]
        simp only [SaveNode.new, Writable.apply_same]
      · refine .inr (.inl ⟨msg, m', files', rfl, h1, h2, ?_⟩)
        rw [h3]
        simp only [SaveNode.new]
      · exact absurd (by rw [e1]) (h1 b)
    | thrown x => exact .inr (.inr (other (.thrown x) (by simp) rfl (by unfold SaveNode.callback; rw [if_neg nf, e1])))
    | assertFail => exact .inr (.inr (other .assertFail (by simp) rfl (by unfold SaveNode.callback; rw [if_neg nf, e1])))
    | ub => exact .inr (.inr (other .ub (by simp) rfl (by unfold SaveNode.callback; rw [if_neg nf, e1])))
    | outOfFuel => exact .inr (.inr (other .outOfFuel (by simp) rfl (by unfold SaveNode.callback; rw [if_neg nf, e1])))

theorem saveLoop (txt : K → K) (w : Writable) (files : Files K) (rounds : List (List (CostMapMsg K))) :
    ((∀ arrived ∈ rounds, ∀ msg ∈ arrived.getLast?, Refused msg) ∧ SaveTool.loop txt w rounds (.new files) = (.ok (), .new files)) ∨
    ∃ pre arrived post msg, rounds = pre ++ arrived :: post ∧ (∀ a ∈ pre, ∀ x ∈ a.getLast?, Refused x) ∧
      arrived.getLast? = some msg ∧
      ((∃ m files', Converts msg m ∧ m.toImageBundle txt files = .ok files' ∧
        SaveTool.loop txt w rounds (.new files) = (.ok (), ⟨true, w.apply files files', [m]⟩)) ∨
      ∃ r, (fromMessage msg (CostMap.new [])).1.map (fun _ => ()) = r ∧ r ≠ .ok () ∧
        SaveTool.loop txt w rounds (.new files) = (r, .new files)) := by
  induction rounds with
  | nil => exact .inl ⟨by simp, rfl⟩
  | cons arrived rounds ih =>
    rcases saveRound txt w files arrived with ⟨h1, h2⟩ | ⟨msg, m, files', h1, h2, h3, h4⟩ | ⟨msg, r, h1, h2, h3, h4⟩
    · have step : SaveTool.loop txt w (arrived :: rounds) (.new files) = SaveTool.loop txt w rounds (.new files) := by
        rw [SaveTool.loop, Act.bind_ok h2]
        simp [SaveNode.new]
      rw [step]
      rcases ih with ⟨g1, g2⟩ | ⟨pre, a, post, x, g1, g2, g3⟩
      · refine .inl ⟨fun a ha => ?_, g2⟩
        rcases List.mem_cons.1 ha with rfl | ha
        · exact h1
        · exact g1 a ha
      · refine .inr ⟨arrived :: pre, a, post, x, by rw [g1]; rfl, fun b hb => ?_, g3⟩
        rcases List.mem_cons.1 hb with rfl | hb
        · exact h1
        · exact g2 b hb
    · refine .inr ⟨[], arrived, rounds, msg, rfl, by simp, h1, .inl ⟨m, files', h2, h3, ?_⟩⟩
      rw [SaveTool.loop, Act.bind_ok h4]
      simp
    · refine .inr ⟨[], arrived, rounds, msg, rfl, by simp, h1, .inr ⟨r, h2, h3, ?_⟩⟩
      rw [SaveTool.loop]
      unfold Act.bind
      rw [h4]
      cases r with
      | ok u => exact absurd rfl h3
      | _ => rfl

/-- C87. What `save_image_bundle` does, for every history of messages and every disk. At each poll it sees the newest message that
arrived since the poll before. Either every message it sees is refused, and it waits until ROS is shut down, writes nothing, and
exits with code 0. Or the first message it sees that is not refused converts; then it writes what can be written of the bundle
of its map, once, and exits with code 0 without waiting for more. Or that message throws, and it exits with code 1 and has
written nothing. Or that message ends the process. -/
theorem C87_save_tool (txt : K → K) (w : Writable) (files : Files K) (rounds : List (List (CostMapMsg K))) :
    ((∀ arrived ∈ rounds, ∀ msg ∈ arrived.getLast?, Refused msg) ∧ SaveTool.main txt w rounds (.new files) = (.ok 0, .new files)) ∨
    ∃ pre arrived post msg, rounds = pre ++ arrived :: post ∧ (∀ a ∈ pre, ∀ x ∈ a.getLast?, Refused x) ∧
      arrived.getLast? = some msg ∧
      ((∃ m files', Converts msg m ∧ m.toImageBundle txt files = .ok files' ∧
          SaveTool.main txt w rounds (.new files) = (.ok 0, ⟨true, w.apply files files', [m]⟩)) ∨
        (∃ e, (fromMessage msg (CostMap.new [])).1 = .thrown e ∧ SaveTool.main txt w rounds (.new files) = (.ok 1, .new files)) ∨
        ((∀ b, (fromMessage msg (CostMap.new [])).1 ≠ .ok b) ∧ (∀ e, (fromMessage msg (CostMap.new [])).1 ≠ .thrown e) ∧
          (∀ n, (SaveTool.main txt w rounds (.new files)).1 ≠ .ok n) ∧
          (SaveTool.main txt w rounds (.new files)).2 = .new files)) := by
  rcases saveLoop txt w files rounds with ⟨h1, h2⟩ | ⟨pre, arrived, post, msg, h1, h2, h3, ⟨m, files', h4, h5, h6⟩ | ⟨r, h4, h5, h6⟩⟩
  · exact .inl ⟨h1, by unfold SaveTool.main; rw [h2]⟩
  · exact .inr ⟨pre, arrived, post, msg, h1, h2, h3, .inl ⟨m, files', h4, h5, by unfold SaveTool.main; rw [h6]⟩⟩
  · refine .inr ⟨pre, arrived, post, msg, h1, h2, h3, .inr ?_⟩
    unfold SaveTool.main
    rw [h6]
    cases e : (fromMessage msg (CostMap.new [])).1 with
    | ok b => rw [e] at h4; exact absurd h4.symm h5
    | thrown x => rw [e] at h4; subst h4; exact .inl ⟨x, rfl, rfl⟩
    | assertFail => rw [e] at h4; subst h4; exact .inr ⟨by simp, by simp, by simp [Res.map, Res.bind], rfl⟩
    | ub => rw [e] at h4; subst h4; exact .inr ⟨by simp, by simp, by simp [Res.map, Res.bind], rfl⟩
    | outOfFuel => rw [e] at h4; subst h4; exact .inr ⟨by simp, by simp, by simp [Res.map, Res.bind], rfl⟩

/-- C87, when every file can be written and ROS is not shut down before a message arrives that is not refused: exit code 0 means that
the bundle on disk is that of the map in a message that arrived, and it was written once. In the full statement exit code 0
always means this; see `C87_false` and `C87_false_disk`. -/
theorem C87_success_partial (txt : K → K) {w : Writable} (hw : w.yaml = true ∧ ∀ f, w.image f = true) (files : Files K)
    {rounds : List (List (CostMapMsg K))} (hr : ∃ arrived ∈ rounds, ∃ msg, arrived.getLast? = some msg ∧ ¬ Refused msg)
    {s : SaveNode K} (h : SaveTool.main txt w rounds (.new files) = (.ok 0, s)) :
    ∃ m, s.saves = [m] ∧ m.toImageBundle txt files = .ok s.files ∧ ∃ arrived ∈ rounds, ∃ msg ∈ arrived, Converts msg m := by
  rcases C87_save_tool txt w files rounds with ⟨h1, -⟩ | ⟨pre, arrived, post, msg, h1, -, h3, h4⟩
  · obtain ⟨a, ha, msg, hm, hn⟩ := hr
    exact absurd (h1 a ha msg hm) hn
  · rcases h4 with ⟨m, files', g1, g2, g3⟩ | ⟨e, -, g⟩ | ⟨-, -, g, -⟩
    · rw [h] at g3
      cases g3
      refine ⟨m, rfl, ?_, arrived, by rw [h1]; simp, msg, List.mem_of_getLast? h3, g1⟩
      rw [g2]
      unfold Writable.apply
      simp [hw.1, hw.2]
    · rw [h] at g; cases g
    · rw [h] at g; exact absurd rfl (g 0)

theorem saveTool_saves (txt : K → K) (w : Writable) (files : Files K) {pre post : List (List (CostMapMsg K))}
    {arrived : List (CostMapMsg K)} {msg : CostMapMsg K} {m : CostMap K} (h2 : arrived.getLast? = some msg) (h3 : Converts msg m)
    (h4 : ∀ a ∈ pre, ∀ x ∈ a.getLast?, Refused x) : ∃ files', m.toImageBundle txt files = .ok files' ∧
      SaveTool.main txt w (pre ++ arrived :: post) (.new files) = (.ok 0, ⟨true, w.apply files files', [m]⟩) := by
  have hnr : ¬ Refused msg := by unfold Refused Converts at *; rw [h3]; simp
  induction pre with
  | nil =>
    rcases saveRound txt w files arrived with ⟨g, -⟩ | ⟨msg', m', files', g1, g2, g3, g4⟩ | ⟨msg', r, g1, g2, g3, g4⟩
    · exact absurd (g msg h2) hnr
    · rw [h2] at g1; cases g1
      unfold Converts at g2 h3
      rw [h3] at g2; cases g2
      refine ⟨files', g3, ?_⟩
      unfold SaveTool.main
      rw [List.nil_append, SaveTool.loop, Act.bind_ok g4]
      simp
    · rw [h2] at g1; cases g1
      unfold Converts at h3
      rw [h3] at g2
      exact absurd g2.symm g3
  | cons a pre ih =>
    obtain ⟨files', e1, e2⟩ := ih fun b hb => h4 b (by simp [hb])
    refine ⟨files', e1, ?_⟩
    rcases saveRound txt w files a with ⟨-, g⟩ | ⟨msg', m', files', g1, g2, -⟩ | ⟨msg', r, g1, g2, g3, -⟩
    · rw [← e2]
      unfold SaveTool.main
      rw [List.cons_append, SaveTool.loop, Act.bind_ok g]
      simp [SaveNode.new]
    · have := h4 a (by simp) msg' g1
      unfold Refused Converts at *
      rw [g2] at this; simp at this
    · have := h4 a (by simp) msg' g1
      unfold Refused at this
      rw [this] at g2
      exact absurd g2.symm g3

/-- C87. What arrives after the message that is saved does not matter, and neither does what is overtaken by a newer message
before a poll. -/
theorem C87_only_the_newest (txt : K → K) (w : Writable) (files : Files K) (rounds : List (List (CostMapMsg K))) :
    SaveTool.main txt w rounds (.new files) = SaveTool.main txt w (rounds.map fun a => a.getLast?.toList) (.new files) ∧
    ∀ pre arrived post post' msg m, rounds = pre ++ arrived :: post → arrived.getLast? = some msg → Converts msg m →
      (∀ a ∈ pre, ∀ x ∈ a.getLast?, Refused x) →
      SaveTool.main txt w rounds (.new files) = SaveTool.main txt w (pre ++ arrived :: post') (.new files) := by
  constructor
  · have : ∀ s, SaveTool.loop txt w rounds s = SaveTool.loop txt w (rounds.map fun a => a.getLast?.toList) s := by
      induction rounds with
      | nil => intro s; rfl
      | cons a rounds ih =>
        intro s
        rw [List.map_cons, SaveTool.loop, SaveTool.loop, waiting_one, waiting_one]
        have : (a.getLast?.toList).getLast? = a.getLast? := by cases a.getLast? <;> rfl
        rw [this]
        congr 1
        funext _ s
        rw [ih]
    unfold SaveTool.main
    rw [this]
  · intro pre arrived post post' msg m h1 h2 h3 h4
    subst h1
    have key := fun q => saveTool_saves txt w files (post := q) h2 h3 h4
    obtain ⟨f, a1, a2⟩ := key post
    obtain ⟨f', b1, b2⟩ := key post'
    rw [a1] at b1; cases b1
    rw [a2, b2]

/-- C87 is false: when ROS is shut down before a map arrives, the exit code is 0 and nothing was saved. -/
theorem C87_false : ¬ ∀ (files : Files ℚ) (rounds : List (List (CostMapMsg ℚ))) (s : SaveNode ℚ),
    SaveTool.main id ⟨true, fun _ => true⟩ rounds (.new files) = (.ok 0, s) → ∃ m, s.saves = [m] := by
  intro h
  obtain ⟨m, hm⟩ := h ⟨.missing, fun _ => none⟩ [[], []] _ rfl
  simp [SaveNode.new] at hm

/-- C87 is false: when the YAML file cannot be written, the exit code is 0 for every history with a good map, and the file is still
missing, so that loading the bundle fails. -/
theorem C87_false_disk (cv : Cv) (rf : K → K) (txt : K → K) {w : Writable} (hw : w.yaml = false) {files : Files K}
    (hf : files.yaml = .missing) {pre post : List (List (CostMapMsg K))} {arrived : List (CostMapMsg K)} {msg : CostMapMsg K}
    {m : CostMap K} (h : arrived.getLast? = some msg) (hc : Converts msg m) (hp : ∀ a ∈ pre, ∀ x ∈ a.getLast?, Refused x) :
    ∃ s, SaveTool.main txt w (pre ++ arrived :: post) (.new files) = (.ok 0, s) ∧ s.finished = true ∧ s.files.yaml = .missing ∧
      ∃ e, loadImageBundle cv rf s.files = .thrown e := by
  obtain ⟨files', -, h2⟩ := saveTool_saves txt w files (post := post) h hc hp
  have hy : (w.apply files files').yaml = .missing := by unfold Writable.apply; simp [hw, hf]
  exact ⟨_, h2, rfl, hy, _, by unfold loadImageBundle fromImageBundle Act.bind Act.lift; rw [hy]; rfl⟩

/-- Two messages arrive between two polls, the newer one is refused; then two good ones arrive, and the newer one is saved. -/
example : ∃ m files', Converts Demo.msg m ∧ m.toImageBundle id ⟨.missing, fun _ => none⟩ = .ok files' ∧
    SaveTool.main id ⟨true, fun _ => true⟩
      [[], [Demo.msg, { Demo.msg with data := [] }], [{ Demo.msg with frameId := "x" }, Demo.msg], [{ Demo.msg with frameId := "y" }]]
      (.new ⟨.missing, fun _ => none⟩) = (.ok 0, ⟨true, files', [m]⟩) := by
  have hr : Refused { Demo.msg with data := [] } := by unfold Refused; decide +kernel
  have hd : (fromMessage Demo.msg (CostMap.new [])).1 = .ok true := by decide +kernel
  have hc : Converts Demo.msg (fromMessage Demo.msg (CostMap.new [])).2 := by unfold Converts; rw [← hd]
  obtain ⟨files', h1, h2⟩ := saveTool_saves id ⟨true, fun _ => true⟩ ⟨.missing, fun _ => none⟩
    (pre := [[], [Demo.msg, { Demo.msg with data := [] }]]) (arrived := [{ Demo.msg with frameId := "x" }, Demo.msg])
    (post := [[{ Demo.msg with frameId := "y" }]]) (msg := Demo.msg) rfl hc (by
      intro a ha x hx
      simp only [List.mem_cons, List.not_mem_nil, or_false] at ha
      rcases ha with rfl | rfl
      · simp at hx
      · simp at hx; subst hx; exact hr)
  refine ⟨_, files', hc, h1, ?_⟩
  rw [show ([[], [Demo.msg, { Demo.msg with data := [] }], [{ Demo.msg with frameId := "x" }, Demo.msg],
    [{ Demo.msg with frameId := "y" }]] : List (List (CostMapMsg ℚ))) = [[], [Demo.msg, { Demo.msg with data := [] }]] ++
      [{ Demo.msg with frameId := "x" }, Demo.msg] :: [[{ Demo.msg with frameId := "y" }]] from rfl, h2]
  unfold Writable.apply
  simp

/-! ## C88 -/

theorem connect_all {α : Type} (names : List String) (t : Topic α) : names.foldl Topic.connect t =
    ⟨t.connected ++ names, t.last, t.received ++ (t.last.map fun a => names.map fun n => (n, a)).getD []⟩ := by
  induction names generalizing t with
  | nil => obtain ⟨a, b, c⟩ := t; cases b <;> simp
  | cons n names ih =>
    rw [List.foldl_cons, ih]
    obtain ⟨a, b, c⟩ := t
    cases b <;> simp [Topic.connect]

/-- C88. For every bundle, every resource and every set of subscribers that connect before or after the publication: with exit code
0 every subscriber got one and the same message, once; with exit code 1 nobody got anything. -/
theorem C88_exit_code (env : LoadEnv K) (location : String) (early late : List String) {n : Nat} {t : Topic (CostMapMsg K)}
    (h : LoadTool.main env location early late .new = (.ok n, t)) :
    (n = 0 ∧ ∃ msg, t.received = (early ++ late).map fun name => (name, msg)) ∨ (n = 1 ∧ t.received = []) := by
  have hearly := connect_all (α := CostMapMsg K) early .new
  simp only [Topic.new, List.nil_append, Option.map_none, Option.getD_none] at hearly
  unfold LoadTool.main LoadTool.construct at h
  simp only [Act.bind, Act.modify, Act.read, Topic.new, hearly] at h
  cases e1 : LoadTool.locate env location with
  | ok file =>
    rw [e1] at h
    simp only at h
    cases e2 : loadImageBundle env.cv env.rf (env.disk file) with
    | ok msg =>
      rw [e2] at h
      simp only [Prod.mk.injEq, Res.ok.injEq] at h
      obtain ⟨rfl, rfl⟩ := h
      refine .inl ⟨rfl, msg, ?_⟩
      rw [connect_all]
      simp [Topic.publish]
    | thrown x => rw [e2] at h; cases h; exact .inr ⟨rfl, rfl⟩
    | assertFail => rw [e2] at h; cases h
    | ub => rw [e2] at h; cases h
    | outOfFuel => rw [e2] at h; cases h
  | thrown x => rw [e1] at h; cases h; exact .inr ⟨rfl, rfl⟩
  | assertFail => rw [e1] at h; cases h
  | ub => rw [e1] at h; cases h
  | outOfFuel => rw [e1] at h; cases h

theorem locate_of_bundleAt {env : LoadEnv K} {location file : String} (h : BundleAt env location file) :
    LoadTool.locate env location = .ok file := by
  unfold LoadTool.locate
  rcases h with ⟨h1, rfl⟩ | ⟨h1, h2⟩ <;> simp [*]

/-- C88. With a usable bundle the tool exits with code 0 when ROS is shut down, and every subscriber, whether it connected
before or after the publication, got one message. From it the subscriber gets a map with the frame, centre and size of the bundle,
with the layers the bundle lists, and with the cost of each pixel at each cell. -/
theorem C88_load_tool {env : LoadEnv K} (hrf : Close24 env.rf) {location file frame : String} {cx cy r : K} {nx ny : Nat}
    {entries : List (String × String)} (hfile : BundleAt env location file)
    (hyaml : (env.disk file).yaml = .parsed ⟨some frame, some cx, some cy, some r, some nx, some ny,
      some (entries.map fun p => ⟨some p.1, some p.2⟩)⟩)
    (hr : 0 < r) (hx : 0 < nx) (hy : 0 < ny) (hx' : nx < 2 ^ 23) (hy' : ny < 2 ^ 23) (early late : List String) :
    ∃ t msg m, LoadTool.main env location early late .new = (.ok 0, t) ∧
      t.received = ((early ++ late).map fun name => (name, msg)) ∧
      (∀ e : CostMap K, NoLayers e → fromMessage msg e = (.ok true, m)) ∧
      m.frameId = frame ∧ m.position = ⟨cx, cy⟩ ∧ m.resolution = env.rf r ∧ m.size = ⟨nx, ny⟩ ∧
      (∀ l, l ∈ m.layers ↔ l ∈ entries.map Prod.fst) ∧
      ∀ l f, entries.lookup l = some f → ∀ img, (env.disk file).images f = some img →
        (FileImage.toImage (some img)).height = nx → (FileImage.toImage (some img)).width = ny →
        ∀ i : Idx, i.In ⟨nx, ny⟩ → ∃ c, (FileImage.toImage (some img)).costAt env.cv i = some c ∧ m.at l i = .ok c := by
  obtain ⟨m, m1, m2, m3, m4, m5, m6, m7, m8, m9, -, m11, -, m13⟩ := C70_load_any_bundle env.cv hrf hyaml hr hx hy hx' hy'
    (e := CostMap.new []) (new_coherent (by simp))
  obtain ⟨msg, s1, -, s3⟩ := (Sendable.mk m3 m2 (by rw [m5]; norm_num) (by rw [m8]; simp only; omega) (by rw [m8]; simp only; omega)
    (by rw [m9]; decide) (by rw [m9]; decide) : Sendable m).send
  have hl : loadImageBundle env.cv env.rf (env.disk file) = .ok msg := by unfold loadImageBundle; simp only [m1]; exact s1
  have hmain : LoadTool.main env location early late .new =
      (.ok 0, late.foldl Topic.connect (Topic.publish (early.foldl Topic.connect .new) msg)) := by
    unfold LoadTool.main LoadTool.construct
    simp only [Act.bind, Act.modify, Act.read, locate_of_bundleAt hfile, hl]
  refine ⟨_, msg, m, hmain, ?_, s3, m4, m6, m7, m8, fun l => ?_, fun l f hlf img h1 h2 h3 i hi => ?_⟩
  · rw [connect_all, connect_all]
    simp [Topic.publish, Topic.new]
  · rw [m11]; simp [CostMap.new]
  · exact (m13 l f hlf).1 img h1 h2 h3 i (by rw [m8]; exact hi)

/-- C88. The tool exits with code 1, and no subscriber gets anything, when there is no file of the given name and no
such resource; when the YAML file is missing or no YAML; and when a field of the metadata is missing. -/
theorem C88_failure (env : LoadEnv K) (location : String) (early late : List String)
    (h : (env.onDisk location = false ∧ ∃ e, resolveResourceName env.registered location = .thrown e) ∨
      ∃ file, BundleAt env location file ∧ ((env.disk file).yaml = .missing ∨ (env.disk file).yaml = .unparsable ∨
        ∃ b, (env.disk file).yaml = .parsed b ∧ (b.frameId = none ∨ b.centreX = none ∨ b.centreY = none ∨ b.resolution = none ∨
            b.cellsX = none ∨ b.cellsY = none))) :
    ∃ t, LoadTool.main env location early late .new = (.ok 1, t) ∧ t.received = [] := by
  have key : ∃ t, LoadTool.main env location early late .new = (.ok 1, t) := by
    rcases h with ⟨h1, e, h2⟩ | ⟨file, h1, h2⟩
    · have hl : LoadTool.locate env location = .thrown e := by unfold LoadTool.locate; simp [h1, h2]
      exact ⟨_, by unfold LoadTool.main LoadTool.construct; simp only [Act.bind, Act.modify, Act.read, hl]; rfl⟩
    · obtain ⟨e, he⟩ : ∃ e, readInfo env.rf (env.disk file).yaml = .thrown e := by
        rcases h2 with h | h | ⟨b, h, hb⟩
        · exact ⟨_, by rw [h]; rfl⟩
        · exact ⟨_, by rw [h]; rfl⟩
        · refine ⟨.logicError, ?_⟩
          rw [h]
          obtain ⟨f, x, y, r, nx, ny, ls⟩ := b
          rcases hb with hb | hb | hb | hb | hb | hb <;> simp only at hb <;> subst hb <;> simp only [readInfo]
      have hl : loadImageBundle env.cv env.rf (env.disk file) = .thrown e := by
        unfold loadImageBundle fromImageBundle Act.bind Act.lift; rw [he]
      exact ⟨_, by unfold LoadTool.main LoadTool.construct; simp only [Act.bind, Act.modify, Act.read, locate_of_bundleAt h1, hl]; rfl⟩
  obtain ⟨t, ht⟩ := key
  rcases C88_exit_code env location early late ht with ⟨h, -⟩ | ⟨-, h⟩
  · cases h
  · exact ⟨t, ht, h⟩

namespace Demo
/-- A disk with one bundle, as a file `b.yaml`. -/
def loadEnv : LoadEnv ℚ where
  cv := cv
  rf := id
  registered := []
  onDisk := fun f => f == "b.yaml"
  disk := fun _ => bundle
end Demo

example : ∃ t msg m, LoadTool.main Demo.loadEnv "b.yaml" ["early"] ["late", "later"] .new = (.ok 0, t) ∧
    t.received = [("early", msg), ("late", msg), ("later", msg)] ∧ fromMessage msg (CostMap.new []) = (.ok true, m) ∧
    m.at "obstacle_costs" ⟨0, 0⟩ = .ok 254 := by
  obtain ⟨t, msg, m, h1, h2, h3, -, -, -, -, -, h4⟩ := C88_load_tool (env := Demo.loadEnv) close24_id (location := "b.yaml")
    (file := "b.yaml") (frame := "map") (cx := 1) (cy := 2) (r := 2 / 5) (nx := 3) (ny := 2)
    (entries := [("obstacle_costs", "o.png")]) (.inl ⟨rfl, rfl⟩) rfl (by norm_num) (by decide) (by decide) (by decide) (by decide)
    ["early"] ["late", "later"]
  refine ⟨t, msg, m, h1, h2, h3 _ noLayers_new, ?_⟩
  obtain ⟨c, c1, c2⟩ := h4 "obstacle_costs" "o.png" rfl _ rfl rfl rfl ⟨0, 0⟩ (by decide)
  rw [c2]
  have : (FileImage.toImage (some (.gray ⟨3, 2, [0, 255, 255, 200, 255, 255], rfl⟩))).costAt Demo.cv ⟨0, 0⟩ = some 254 := by
    decide +kernel
  rw [← Option.some_inj.1 (this.symm.trans c1)]

/-- No file of this name, and no such resource. -/
example : ∃ t, LoadTool.main Demo.loadEnv "pkg/c.yaml" ["early"] [] .new = (.ok 1, t) ∧ t.received = [] :=
  C88_failure _ _ _ _ (.inl ⟨by decide +kernel, .runtimeError, by decide +kernel⟩)

/-! ## C89 -/

/-- C89. When the service does not appear within ten seconds, the tool exits with code 1 and has published nothing. -/
theorem C89_not_found (rf : K → K) (asked : String) (rounds : List (RelayRound K)) :
    RelayTool.main rf false rounds (.start asked) = (.ok 1, .start asked) := rfl

/-- C89, as long as the connection is not lost and every map has the layer that was asked for: one grid of the layer asked for
is published per answer, in order, the tool sleeps once after each, and a call that the service refuses only means that nothing
is published. In the full statement the tool also carries on when the service was stopped and is started again; see
`C89_silent_after_loss` and `C89_false`. -/
theorem C89_relay_partial (rf : K → K) (asked : String) {maps : List (Option (CostMap K))} {rounds : List (RelayRound K)}
    (h : List.Forall₂ (fun om r => r.lost = false ∧ match om with
      | none => r.service = .refuses
      | some m => Sendable m ∧ asked ∈ m.layers ∧ ∃ msg, m.toMessage = .ok msg ∧ r.service = .answers msg) maps rounds) :
    ∃ s, RelayTool.main rf true rounds (.start asked) = (.ok 0, s) ∧ s.sleeps = (maps.filterMap id).length ∧
      List.Forall₂ (fun m g => m.toOccupancyGrid rf asked [] = .ok g) (maps.filterMap id) s.relay.published := by
  have key : ∀ (link : Link) (gs : List (OccupancyGrid K)) (n : Nat), link ≠ .dropped →
      ∃ link' gs', Act.forEach (RelayTool.step rf) rounds ⟨link, ⟨asked, gs⟩, n⟩ =
        (.ok (), ⟨link', ⟨asked, gs ++ gs'⟩, n + (maps.filterMap id).length⟩) ∧
        List.Forall₂ (fun m g => m.toOccupancyGrid rf asked [] = .ok g) (maps.filterMap id) gs' := by
    induction h with
    | nil => intro link gs n _; exact ⟨link, [], by rw [List.append_nil]; rfl, .nil⟩
    | @cons om r maps rounds h hr ih =>
      intro link gs n hl
      obtain ⟨h0, h⟩ := h
      cases om with
      | none =>
        simp only at h
        have step : RelayTool.step rf r ⟨link, ⟨asked, gs⟩, n⟩ = (.ok (), ⟨.alive, ⟨asked, gs⟩, n⟩) := by
          unfold RelayTool.step RelayTool.call
          cases link
          · simp [h]
          · simp [h, h0]
          · exact absurd rfl hl
        obtain ⟨link', gs', h1, h2⟩ := ih .alive gs n (by simp)
        refine ⟨link', gs', ?_, h2⟩
        rw [Act.forEach, Act.bind_ok step, h1]
        rfl
      | some m =>
        obtain ⟨hs, ha, msg, hm, hmsg⟩ := h
        obtain ⟨g, hg⟩ := hs.grid rf ha
        have st := relay_step (s := ⟨asked, gs⟩) hs hm (layer := asked) (by
          unfold requestedLayer
          split
          · rename_i l e; rw [e, List.mem_singleton] at ha; exact ha.symm
          · rfl) hg
        have step : RelayTool.step rf r ⟨link, ⟨asked, gs⟩, n⟩ = (.ok (), ⟨.alive, ⟨asked, gs ++ [g]⟩, n + 1⟩) := by
          unfold RelayTool.step RelayTool.call
          cases link
          · simp [hmsg, st]
          · simp [hmsg, h0, st]
          · exact absurd rfl hl
        obtain ⟨link', gs', h1, h2⟩ := ih .alive (gs ++ [g]) (n + 1) (by simp)
        refine ⟨link', g :: gs', ?_, .cons hg h2⟩
        rw [Act.forEach, Act.bind_ok step, h1]
        simp [Nat.add_assoc, Nat.add_comm 1]
  obtain ⟨link', gs', h1, h2⟩ := key .none [] 0 (by simp)
  refine ⟨⟨link', ⟨asked, [] ++ gs'⟩, 0 + (maps.filterMap id).length⟩, ?_, by simp, by simpa using h2⟩
  unfold RelayTool.main RelayTool.start
  rw [if_pos rfl, Act.bind_ok h1]
  rfl

/-- C89. Once the connection is lost, nothing is published any more, whatever the service does afterwards, and the tool calls
the service again and again without sleeping. -/
theorem C89_silent_after_loss (rf : K → K) {s : RelayTool K} (hs : s.link = .alive) {r : RelayRound K}
    (hr : r.lost = true ∨ r.service = .absent) (rounds : List (RelayRound K)) :
    Act.forEach (RelayTool.step rf) (r :: rounds) s = (.ok (), { s with link := .dropped }) := by
  have first : RelayTool.step rf r s = (.ok (), { s with link := .dropped }) := by
    unfold RelayTool.step RelayTool.call
    rw [hs]
    rcases hr with h | h
    · simp [h]
    · by_cases h' : r.lost = true <;> simp [h, h']
  have rest : ∀ (rounds : List (RelayRound K)) (s : RelayTool K), s.link = .dropped →
      Act.forEach (RelayTool.step rf) rounds s = (.ok (), s) := by
    intro rounds
    induction rounds with
    | nil => intro s _; rfl
    | cons r rounds ih =>
      intro s hs
      have : RelayTool.step rf r s = (.ok (), s) := by
        obtain ⟨l, a, b⟩ := s
        simp only at hs
        subst hs
        rfl
      rw [Act.forEach, Act.bind_ok this]
      exact ih s hs
  rw [Act.forEach, Act.bind_ok first]
  exact rest rounds _ rfl

/-- C89 is false: the service answers, its node is stopped, started again, and answers again; only the first answer is relayed. -/
theorem C89_false : ¬ ∀ (asked : String) (m : CostMap ℚ) (msg : CostMapMsg ℚ) (rounds : List (RelayRound ℚ)),
    Sendable m → asked ∈ m.layers → m.toMessage = .ok msg → (∀ r ∈ rounds, r.service = .answers msg) →
    ∃ s, RelayTool.main id true rounds (.start asked) = (.ok 0, s) ∧ s.relay.published.length = rounds.length := by
  intro h
  have hs := Demo.one_sendable "x" 3
  obtain ⟨msg, m1, -⟩ := hs.send
  obtain ⟨s, h1, h2⟩ := h "x" (Demo.one "x" 3) msg [⟨false, .answers msg⟩, ⟨true, .answers msg⟩] hs (by decide) m1 (by simp)
  obtain ⟨g, -, e⟩ := C66_single_layer id ⟨"x", []⟩ hs (l := "x") rfl m1
  have step : RelayTool.step id ⟨false, .answers msg⟩ (.start "x") = (.ok (), ⟨.alive, ⟨"x", [g]⟩, 1⟩) := by
    unfold RelayTool.step RelayTool.call RelayTool.start
    simp [e]
  have := C89_silent_after_loss id (s := ⟨.alive, ⟨"x", [g]⟩, 1⟩) rfl (r := ⟨true, .answers msg⟩) (.inl rfl) []
  unfold RelayTool.main at h1
  rw [if_pos rfl, Act.forEach] at h1
  unfold Act.bind at h1
  rw [step] at h1
  simp only [this, Act.pure, Prod.mk.injEq, true_and] at h1
  subst h1
  simp at h2

example : ∃ a b s, (Demo.one "x" 3).toMessage = .ok a ∧ (Demo.twoLayers "x" "y" 3 4).toMessage = .ok b ∧
    RelayTool.main id true [⟨false, .answers a⟩, ⟨false, .refuses⟩, ⟨false, .answers b⟩] (.start "x") = (.ok 0, s) ∧
    s.sleeps = 2 ∧ s.relay.published.length = 2 := by
  obtain ⟨a, a1, -⟩ := (Demo.one_sendable "x" 3).send
  obtain ⟨b, b1, -⟩ := (Demo.twoLayers_sendable (k := "x") (l := "y") (by decide) 3 4).send
  obtain ⟨s, h1, h2, h3⟩ := C89_relay_partial id "x" (maps := [some (Demo.one "x" 3), none, some (Demo.twoLayers "x" "y" 3 4)])
    (rounds := [⟨false, .answers a⟩, ⟨false, .refuses⟩, ⟨false, .answers b⟩])
    (.cons ⟨rfl, Demo.one_sendable _ _, by decide, a, a1, rfl⟩ (.cons ⟨rfl, rfl⟩
      (.cons ⟨rfl, Demo.twoLayers_sendable (by decide) _ _, by decide, b, b1, rfl⟩ .nil)))
  exact ⟨a, b, s, a1, b1, h1, h2, h3.length_eq.symm⟩

end CostMapModel

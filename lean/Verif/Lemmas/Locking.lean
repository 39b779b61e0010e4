import Verif.Spec.Locking
import Verif.Lemmas.Costmap2D
import Mathlib.Data.List.Induction

/-!
# Lemmas: conversions while the ROS costmap is being updated
-/

set_option linter.unusedSectionVars false

namespace CostMapModel
namespace Locking
variable {K : Type} [Field K] [LinearOrder K] [FloorRing K] {A B : Type}

/-! ## A conversion of a costmap that does not change -/

@[simp] theorem eval_done (c : Costmap2DROS K) (a : A) : (Prog.done a : Prog K A).eval c = a := rfl
@[simp] theorem eval_ask (c : Costmap2DROS K) (q : Query) (k : q.Ans K → Prog K A) :
    (Prog.ask q k).eval c = (k (q.eval c)).eval c := rfl

@[simp] theorem eval_bind (c : Costmap2DROS K) (p : Prog K A) (f : A → Prog K B) : (p.bind f).eval c = (f (p.eval c)).eval c := by
  induction p with
  | done a => rfl
  | ask q k ih => exact ih _

@[simp] theorem eval_size (c : Costmap2DROS K) : (sizeProg : Prog K _).eval c = (c.costmap.sizeX, c.costmap.sizeY) := rfl
@[simp] theorem eval_origin (c : Costmap2DROS K) : (originProg : Prog K _).eval c = c.costmap.origin := rfl

theorem eval_cells (c : Costmap2DROS K) (ks : List Nat) :
    (cellsProg ks : Prog K _).eval c = ks.mapM fun k => c.costmap.costs[k]? := by
  induction ks with
  | nil => rfl
  | cons k ks ih =>
    unfold cellsProg
    rw [eval_ask, List.mapM_cons]
    simp only [Query.eval]
    cases c.costmap.costs[k]? with
    | none => rfl
    | some v =>
      simp only [eval_bind, ih, eval_done, Option.bind_eq_bind, Option.bind_some]
      cases ks.mapM fun k => c.costmap.costs[k]? <;> rfl

theorem mapM_get {l : List Cost} (ks : List Nat) (h : ∀ k ∈ ks, k < l.length) :
    ks.mapM (fun k => l[k]?) = some (ks.map fun k => l[k]?.getD 0) := by
  induction ks with
  | nil => rfl
  | cons k ks ih =>
    rw [List.mapM_cons, ih fun k' hk' => h k' (List.mem_cons_of_mem _ hk'), List.getElem?_eq_getElem (h k List.mem_cons_self)]
    simp [List.getElem?_eq_getElem (h k List.mem_cons_self)]

theorem eval_cells_all (c : Costmap2DROS K) : (cellsProg (List.range c.costmap.costs.length).reverse : Prog K _).eval c =
    some c.costmap.costs.reverse := by
  rw [eval_cells, mapM_get _ (by simp), List.map_reverse]
  congr 2
  apply List.ext_getElem?
  intro i
  rw [List.getElem?_map]
  by_cases h : i < c.costmap.costs.length
  · simp [h]
  · rw [List.getElem?_eq_none (by simpa using h), List.getElem?_eq_none (by simpa using h)]
    rfl

theorem eval_andThen (c : Costmap2DROS K) (x : Res A × CostMap K) (f : A → CostMap K → Prog K (Res B × CostMap K)) :
    (andThen x f).eval c = Act.bind (fun _ => x) (fun a m => (f a m).eval c) x.2 := by
  rcases x with ⟨_ | _ | _ | _ | _, m⟩ <;> rfl

theorem add_eval (c : Costmap2DROS K) (hc : Sound c.costmap) (l : String) (m : CostMap K) :
    (addProg l m).eval c = CostMap.addFromCostmap2D c.costmap l m := by
  unfold Sound at hc
  unfold addProg CostMap.addFromCostmap2D
  rw [eval_bind, eval_size]
  simp only
  split
  · rfl
  · split
    · rfl
    · have := eval_cells_all c
      rw [hc] at this
      rw [eval_bind, this]
      simp only
      rw [dif_pos (by rw [List.length_reverse]; exact hc)]
      unfold CostMap.reversedMat
      rw [dif_pos hc]
      rfl

theorem full_eval (c : Costmap2DROS K) (hc : Sound c.costmap) (l : String) (m : CostMap K) :
    (fullProg l m).eval c = CostMap.fromCostmap2DROS c l m := by
  unfold fullProg initProg CostMap.fromCostmap2DROS CostMap.initFromCostmap2D
  simp only [eval_bind, eval_ask, eval_size, eval_origin, eval_andThen, Query.eval, eval_done, add_eval c hc]
  unfold Act.bind Act.modify
  rcases CostMap.setGeometry _ _ _ m with ⟨_ | _ | _ | _ | _, m1⟩ <;> rfl

theorem worldToMap_eval (c : Costmap2DROS K) (p : Vec K) : (worldToMapProg p).eval c = c.costmap.worldToMap p := by
  unfold worldToMapProg Costmap2D.worldToMap
  rw [eval_bind, eval_origin]
  split
  · rfl
  · simp only [eval_ask, eval_bind, eval_size, Query.eval]
    by_cases h : (truncToInt ((p.x - c.costmap.origin.x) / c.costmap.resolution)).toNat < c.costmap.sizeX ∧
        (truncToInt ((p.y - c.costmap.origin.y) / c.costmap.resolution)).toNat < c.costmap.sizeY
    · exact (congrArg (Prog.eval c) (if_pos h)).trans (if_pos h).symm
    · exact (congrArg (Prog.eval c) (if_neg h)).trans (if_neg h).symm

theorem window_eval (c : Costmap2DROS K) (o s : Vec K) : (windowProg o s).eval c = c.costmap.window o s := by
  unfold windowProg Costmap2D.window
  simp only [eval_bind, worldToMap_eval]
  rcases c.costmap.worldToMap o with _ | ⟨x0, y0⟩
  · rfl
  · rcases c.costmap.worldToMap ⟨o.x + s.x, o.y + s.y⟩ with _ | ⟨x1, y1⟩
    · rfl
    · simp only [eval_ask, eval_bind, eval_cells, Query.eval, Costmap2D.region, List.mapM_map, Function.comp_def]
      cases List.mapM (fun k => c.costmap.costs[(y0 + k / (x1 - x0)) * c.costmap.sizeX + (x0 + k % (x1 - x0))]?)
        (List.range ((x1 - x0) * (y1 - y0))) <;> rfl

theorem robot_eval (c : Costmap2DROS K) (g : Vec K) (l : String) (m : CostMap K) :
    (robotProg g l m).eval c = CostMap.fromCostmap2DROSAtRobotPose c g l m := by
  unfold robotProg CostMap.fromCostmap2DROSAtRobotPose CostMap.initAtRobotPose initRobotProg
  rw [eval_bind, eval_ask]
  have hadd : ∀ m1 : CostMap K, (addRobotProg l m1).eval c = Act.bind (CostMap.addAtRobotPose c l) (fun b' => Act.pure b') m1 := by
    intro m1
    show (addRobotProgWith l m1 c.costmap.resolution).eval c = _
    unfold addRobotProgWith CostMap.addAtRobotPose
    unfold Act.bind
    simp only
    by_cases h : m1.resolution = c.costmap.resolution
    · rw [if_neg (by simpa using h), if_neg (by simpa using h), eval_bind, window_eval, eval_andThen]
      unfold Act.bind Act.lift
      simp only
      rcases c.costmap.window _ _ with (_ | w) | _ | _ | _ | _ <;> try rfl
      simp only [eval_done]
      rcases CostMap.addFromCostmap2D w l m1 with ⟨_ | _ | _ | _ | _, m2⟩ <;> rfl
    · rw [if_pos h, if_pos h]
      rfl
  simp only [Query.eval]
  rcases c.robot with _ | p
  · rfl
  · simp only [eval_ask, eval_bind, eval_origin, eval_done, eval_andThen, Query.eval]
    unfold Act.bind Act.modify Act.pure
    simp only
    rcases CostMap.setGeometry _ _ _ _ with ⟨_ | _ | _ | _ | _, m1⟩ <;> try rfl
    simp only [if_true]
    have := hadd m1
    unfold Act.bind Act.pure at this
    exact this

/-! ## The robot moves during a conversion -/

/-- A computation may end with a result while the costmap stays the same, the pose of the robot and the time being any of the given. -/
inductive May (c : Costmap2D K) (frame : String) (env : List (Option (Vec K) × Nat)) : Prog K A → A → Prop
  | done (a : A) : May c frame env (.done a) a
  | ask {q : Query} {k : q.Ans K → Prog K A} {r : A} {p : Option (Vec K)} {n : Nat} (h : (p, n) ∈ env)
      (hr : May c frame env (k (q.eval ⟨c, frame, p, n⟩)) r) : May c frame env (.ask q k) r

/-- The computation asks neither for the pose nor for the time. -/
inductive Still : Prog K A → Prop
  | done (a : A) : Still (.done a)
  | ask {q : Query} {k : q.Ans K → Prog K A} (hr : q ≠ .robot) (hn : q ≠ .now) (h : ∀ x, Still (k x)) : Still (.ask q k)

theorem eval_still {q : Query} (hr : q ≠ .robot) (hn : q ≠ .now) (c : Costmap2D K) (f : String) (p p' : Option (Vec K)) (n n' : Nat) :
    q.eval (⟨c, f, p, n⟩ : Costmap2DROS K) = q.eval ⟨c, f, p', n'⟩ := by
  cases q <;> first | rfl | exact absurd rfl hr | exact absurd rfl hn

theorem May.of_still {c : Costmap2D K} {f : String} {env : List (Option (Vec K) × Nat)} {p : Prog K A} {r : A}
    (h : May c f env p r) (hs : Still p) (x : Option (Vec K)) (t : Nat) : r = p.eval ⟨c, f, x, t⟩ := by
  induction h with
  | done a => rfl
  | ask h _ ih =>
    cases hs with
    | ask h1 h2 h3 =>
      rw [eval_ask, eval_still h1 h2 c f x _ t _]
      exact ih (h3 _)

theorem Still.bind {p : Prog K A} {f : A → Prog K B} (hp : Still p) (hf : ∀ a, Still (f a)) : Still (p.bind f) := by
  induction hp with
  | done a => exact hf a
  | ask h1 h2 _ ih => exact .ask h1 h2 ih

theorem still_size : Still (sizeProg : Prog K _) := .ask (by simp) (by simp) fun _ => .ask (by simp) (by simp) fun _ => .done _
theorem still_origin : Still (originProg : Prog K _) := .ask (by simp) (by simp) fun _ => .ask (by simp) (by simp) fun _ => .done _

theorem still_cells (ks : List Nat) : Still (cellsProg ks : Prog K _) := by
  induction ks with
  | nil => exact .done _
  | cons k ks ih =>
    refine .ask (by simp) (by simp) fun v => ?_
    rcases v with _ | v
    · exact .done _
    · exact ih.bind fun _ => .done _

theorem still_andThen {x : Res A × CostMap K} {f : A → CostMap K → Prog K (Res B × CostMap K)} (h : ∀ a m, Still (f a m)) :
    Still (andThen x f) := by
  rcases x with ⟨_ | _ | _ | _ | _, m⟩ <;> first | exact h _ _ | exact .done _

theorem still_full (l : String) (m : CostMap K) : Still (fullProg l m) := by
  refine Still.bind (.ask (by simp) (by simp) fun r => still_size.bind fun n => still_origin.bind fun o =>
    still_andThen fun _ _ => .ask (by simp) (by simp) fun _ => .done _) fun x => still_andThen fun _ m1 =>
    still_size.bind fun n => ?_
  split
  · exact .done _
  · split
    · exact .done _
    · refine (still_cells _).bind fun d => ?_
      rcases d with _ | d
      · exact .done _
      · simp only
        split <;> exact .done _

theorem still_worldToMap (p : Vec K) : Still (worldToMapProg p) := by
  refine still_origin.bind fun o => ?_
  split
  · exact .done _
  · refine .ask (by simp) (by simp) fun r => still_size.bind fun n => ?_
    split <;> exact .done _

theorem still_window (o s : Vec K) : Still (windowProg o s) := by
  refine (still_worldToMap _).bind fun a => (still_worldToMap _).bind fun b => ?_
  rcases a with _ | ⟨x0, y0⟩
  · exact .done _
  · rcases b with _ | ⟨x1, y1⟩
    · exact .done _
    · refine .ask (by simp) (by simp) fun r => .ask (by simp) (by simp) fun nx => (still_cells _).bind fun d => ?_
      rcases d with _ | d <;> exact .done _

theorem still_addRobot (l : String) (m : CostMap K) : Still (addRobotProg l m) := by
  refine .ask (by simp) (by simp) fun r => ?_
  unfold addRobotProgWith
  split
  · exact .done _
  · refine (still_window _ _).bind fun w => still_andThen fun w m => ?_
    rcases w with _ | w <;> exact .done _

theorem May.robot {c : Costmap2D K} {f : String} {env : List (Option (Vec K) × Nat)} {g : Vec K} {l : String} {m : CostMap K}
    {r : Out K} (h : May c f env (robotProg g l m) r) :
    ∃ p n, (∃ n', (p, n') ∈ env) ∧ (∃ p', (p', n) ∈ env) ∧ (robotProg g l m).eval ⟨c, f, p, n⟩ = r := by
  unfold robotProg initRobotProg at h ⊢
  cases h with
  | @ask _ _ _ p n hp h =>
    rcases p with _ | p
    · refine ⟨none, n, ⟨n, hp⟩, ⟨none, hp⟩, ?_⟩
      cases h with
      | done => rfl
    · cases h with
      | @ask _ _ _ p1 n1 hp1 h =>
        cases h with
        | @ask _ _ _ p2 n2 hp2 h =>
          refine ⟨some p, n2, ⟨n, hp⟩, ⟨p2, hp2⟩, ?_⟩
          have hs := h.of_still (x := some p) (t := n2) ?_
          · exact hs.symm
          · refine .ask (by simp) (by simp) fun r => Still.bind (still_origin.bind fun o => .done _) fun x => still_andThen fun b m1 => ?_
            split
            · exact still_addRobot _ _
            · exact .done _

theorem May.mono {c : Costmap2D K} {f : String} {env env' : List (Option (Vec K) × Nat)} (he : env ⊆ env') {p : Prog K A} {r : A}
    (h : May c f env p r) : May c f env' p r := by
  induction h with
  | done a => exact .done a
  | ask h _ ih => exact .ask (he h) ih

/-! ## The order in which the threads get the lock -/

/-- The thread that gets the lock by this turn. -/
def enters (s : St K) : Turn K → List Nat
  | .moved _ _ => []
  | .thread i => match s.threads[i]? with
    | some (.waiting _) => if s.owner = none then [i] else []
    | _ => []

/-- The threads that get the lock, in their order. -/
def orderFrom (s : St K) : List (Turn K) → List Nat
  | [] => []
  | t :: ts => enters s t ++ orderFrom (step s t) ts

theorem orderFrom_append (s : St K) (a b : List (Turn K)) : orderFrom s (a ++ b) = orderFrom s a ++ orderFrom (a.foldl step s) b := by
  induction a generalizing s with
  | nil => rfl
  | cons t a ih => simp only [List.cons_append, orderFrom, ih, List.foldl_cons, List.append_assoc]

theorem after_append (calls : List (Call K)) (c : Costmap2D K) (a b : List Nat) :
    after calls c (a ++ b) = after calls (after calls c a) b := by
  unfold after
  rw [List.foldl_append]

/-- What holds of a thread. -/
inductive Good (calls : List (Call K)) (c0 : Costmap2D K) (frame : String) (env : List (Option (Vec K) × Nat)) (s : St K)
    (order : List Nat) (i : Nat) (x : Call K) : Prop
  | waiting (h : s.threads[i]? = some (.waiting x.job)) (hi : i ∉ order)
  | reading {p P : Prog K (Out K)} {pre : List Nat} (h : s.threads[i]? = some (.inside (.convert p))) (ho : s.owner = some i)
      (he : order = pre ++ [i]) (hx : x.job = .convert P) (hc : s.ros.costmap = after calls c0 pre)
      (hp : ∀ env', env ⊆ env' → ∀ r, May (after calls c0 pre) frame env' p r → May (after calls c0 pre) frame env' P r)
  | writing {ws : List (Costmap2D K → Costmap2D K)} {pre : List Nat} (h : s.threads[i]? = some (.inside (.update ws)))
      (ho : s.owner = some i) (he : order = pre ++ [i]) (hc : ws.foldl (fun c w => w c) s.ros.costmap = after calls c0 order)
  | converted {r : Out K} {P : Prog K (Out K)} {pre : List Nat} (h : s.threads[i]? = some (.finished (some r))) (ho : s.owner ≠ some i)
      (he : pre ++ [i] <+: order) (hx : x.job = .convert P) (hr : May (after calls c0 pre) frame env P r)
  | updated (h : s.threads[i]? = some (.finished none)) (ho : s.owner ≠ some i) (he : i ∈ order)

/-- What holds after every schedule. -/
structure Inv (calls : List (Call K)) (c0 : Costmap2D K) (frame : String) (env : List (Option (Vec K) × Nat)) (s : St K)
    (order : List Nat) : Prop where
  len : s.threads.length = calls.length
  frm : s.ros.globalFrame = frame
  seen : (s.ros.robot, s.ros.now) ∈ env
  nodup : order.Nodup
  bound : ∀ i ∈ order, i < calls.length
  good : ∀ i x, calls[i]? = some x → Good calls c0 frame env s order i x
  free : s.owner = none → s.ros.costmap = after calls c0 order
  held : ∀ i, s.owner = some i → ∃ j, s.threads[i]? = some (.inside j)

theorem Good.not_owner {calls : List (Call K)} {c0 : Costmap2D K} {frame : String} {env : List (Option (Vec K) × Nat)} {s : St K}
    {order : List Nat} {i : Nat} {x : Call K} (h : Good calls c0 frame env s order i x) (hn : s.owner ≠ some i) :
    (s.threads[i]? = some (.waiting x.job) ∧ i ∉ order) ∨
    (∃ r P pre, s.threads[i]? = some (.finished (some r)) ∧ pre ++ [i] <+: order ∧ x.job = .convert P ∧
      May (after calls c0 pre) frame env P r) ∨
    (s.threads[i]? = some (.finished none) ∧ i ∈ order) := by
  cases h with
  | waiting h hi => exact Or.inl ⟨h, hi⟩
  | reading h ho => exact absurd ho hn
  | writing h ho => exact absurd ho hn
  | converted h ho he hx hr => exact Or.inr (Or.inl ⟨_, _, _, h, he, hx, hr⟩)
  | updated h ho he => exact Or.inr (Or.inr ⟨h, he⟩)

/-- A thread that does not hold the lock, before or after, is not affected by the turn of another. -/
theorem Good.other {calls : List (Call K)} {c0 : Costmap2D K} {frame : String} {env : List (Option (Vec K) × Nat)} {s s' : St K}
    {order order' : List Nat} {i : Nat} {x : Call K} (h : Good calls c0 frame env s order i x) (hn : s.owner ≠ some i)
    (hn' : s'.owner ≠ some i) (ht : s'.threads[i]? = s.threads[i]?) (ho : order <+: order') (hi : i ∈ order' → i ∈ order) :
    Good calls c0 frame env s' order' i x := by
  rcases h.not_owner hn with ⟨h1, h2⟩ | ⟨r, P, pre, h1, h2, h3, h4⟩ | ⟨h1, h2⟩
  · exact .waiting (by rw [ht, h1]) fun hc => h2 (hi hc)
  · exact .converted (by rw [ht, h1]) hn' (h2.trans ho) h3 h4
  · exact .updated (by rw [ht, h1]) hn' (ho.subset h2)

theorem Call.effect_of_convert {x : Call K} {P : Prog K (Out K)} (h : x.job = .convert P) (c : Costmap2D K) : x.effect c = c := by
  cases x with
  | full | atRobot => rfl
  | update ws => simp [Call.job] at h

theorem after_one {calls : List (Call K)} {i : Nat} {x : Call K} (h : calls[i]? = some x) (c : Costmap2D K) :
    after calls c [i] = x.effect c := by
  simp [after, h]

theorem inv_step {calls : List (Call K)} {c0 : Costmap2D K} {frame : String} {env : List (Option (Vec K) × Nat)} {s : St K}
    {order : List Nat} (h : Inv calls c0 frame env s order) (i : Nat) :
    Inv calls c0 frame env (step s (.thread i)) (order ++ enters s (.thread i)) := by
  by_cases hi : i < calls.length
  swap
  · have : s.threads[i]? = none := List.getElem?_eq_none (by rw [h.len]; omega)
    simpa [step, enters, this] using h
  obtain ⟨x, hx⟩ : ∃ x, calls[i]? = some x := ⟨_, List.getElem?_eq_getElem hi⟩
  have hlen : i < s.threads.length := by rw [h.len]; exact hi
  have hset : ∀ y, (s.threads.set i y)[i]? = some y := fun y => by rw [List.getElem?_set_self hlen]
  have hne : ∀ y k, k ≠ i → (s.threads.set i y)[k]? = s.threads[k]? := fun y k hk => List.getElem?_set_ne (Ne.symm hk)
  cases h.good i x hx with
  | waiting ht hni =>
    by_cases ho : s.owner = none
    · simp only [step, enters, ht, ho, if_true]
      refine ⟨by simpa using h.len, h.frm, h.seen, ?_, ?_, fun k y hk => ?_, fun hc => by simp at hc, fun k hk => ?_⟩
      · exact List.nodup_append.mpr ⟨h.nodup, by simp, fun a ha b hb => by
          rw [List.mem_singleton] at hb
          rintro rfl
          exact hni (hb ▸ ha)⟩
      · intro k hk
        rcases List.mem_append.mp hk with hk | hk
        · exact h.bound k hk
        · rw [List.mem_singleton.mp hk]; exact hi
      · by_cases hki : k = i
        · subst hki
          rw [hx, Option.some.injEq] at hk
          subst hk
          cases hj : x.job with
          | convert P =>
            exact .reading (hset _) rfl rfl hj (h.free ho) fun _ _ _ hm => hm
          | update ws =>
            refine .writing (hset _) rfl rfl ?_
            simp only
            rw [h.free ho, after_append, after_one hx]
            cases x with
            | full | atRobot => simp [Call.job] at hj
            | update ws' =>
              simp only [Call.job, Job.update.injEq] at hj
              subst hj
              rfl
        · exact (h.good k y hk).other (by rw [ho]; simp) (by simpa using Ne.symm hki) (hne _ k hki) (List.prefix_append _ _)
            fun hc => by
              rcases List.mem_append.mp hc with hc | hc
              · exact hc
              · exact absurd (List.mem_singleton.mp hc) hki
      · rw [Option.some.injEq] at hk
        subst hk
        exact ⟨_, hset _⟩
    · simpa [step, enters, ht, ho] using h
  | @reading p P pre ht ho he hxj hc hp =>
    cases p with
    | done r =>
      simp only [step, enters, ht, List.append_nil]
      refine ⟨by simpa using h.len, h.frm, h.seen, h.nodup, h.bound, fun k y hk => ?_, fun _ => ?_, fun k hk => by simp at hk⟩
      · by_cases hki : k = i
        · subst hki
          rw [hx, Option.some.injEq] at hk
          subst hk
          exact .converted (hset _) (by simp) (by rw [he]) hxj (hp env (fun _ h => h) r (.done r))
        · exact (h.good k y hk).other (by rw [ho]; simpa using Ne.symm hki) (by simp) (hne _ k hki) (List.prefix_refl _) id
      · simp only
        rw [hc, he, after_append, after_one hx, Call.effect_of_convert hxj]
    | ask q kk =>
      simp only [step, enters, ht, List.append_nil]
      refine ⟨by simpa using h.len, h.frm, h.seen, h.nodup, h.bound, fun k y hk => ?_, fun hc => by simp [ho] at hc, fun k hk => ?_⟩
      swap
      · simp only [ho, Option.some.injEq] at hk
        subst hk
        exact ⟨_, hset _⟩
      by_cases hki : k = i
      · subst hki
        rw [hx, Option.some.injEq] at hk
        subst hk
        refine .reading (hset _) ho he hxj hc fun env' hs r hm => hp env' hs r (.ask (hs h.seen) ?_)
        have e : s.ros = ⟨after calls c0 pre, frame, s.ros.robot, s.ros.now⟩ := by rw [← hc, ← h.frm]
        rw [e] at hm
        exact hm
      · exact (h.good k y hk).other (by rw [ho]; simpa using Ne.symm hki) (by rw [ho]; simpa using Ne.symm hki) (hne _ k hki)
          (List.prefix_refl _) id
  | @writing ws pre ht ho he hc =>
    cases ws with
    | nil =>
      simp only [step, enters, ht, List.append_nil]
      refine ⟨by simpa using h.len, h.frm, h.seen, h.nodup, h.bound, fun k y hk => ?_, fun _ => hc, fun k hk => by simp at hk⟩
      by_cases hki : k = i
      · subst hki
        exact .updated (hset _) (by simp) (by rw [he]; simp)
      · exact (h.good k y hk).other (by rw [ho]; simpa using Ne.symm hki) (by simp) (hne _ k hki) (List.prefix_refl _) id
    | cons w ws =>
      simp only [step, enters, ht, List.append_nil]
      refine ⟨by simpa using h.len, h.frm, h.seen, h.nodup, h.bound, fun k y hk => ?_, fun hc => by simp [ho] at hc, fun k hk => ?_⟩
      swap
      · simp only [ho, Option.some.injEq] at hk
        subst hk
        exact ⟨_, hset _⟩
      by_cases hki : k = i
      · subst hki
        exact .writing (hset _) ho he hc
      · exact (h.good k y hk).other (by rw [ho]; simpa using Ne.symm hki) (by rw [ho]; simpa using Ne.symm hki) (hne _ k hki)
          (List.prefix_refl _) id
  | converted ht => simpa [step, enters, ht] using h
  | updated ht => simpa [step, enters, ht] using h

theorem inv_moved {calls : List (Call K)} {c0 : Costmap2D K} {frame : String} {env : List (Option (Vec K) × Nat)} {s : St K}
    {order : List Nat} (h : Inv calls c0 frame env s order) (p : Option (Vec K)) (n : Nat) :
    Inv calls c0 frame (env ++ [(p, n)]) (step s (.moved p n)) order := by
  refine ⟨h.len, h.frm, by simp [step], h.nodup, h.bound, fun i x hx => ?_, h.free, h.held⟩
  cases h.good i x hx with
  | waiting ht hi => exact .waiting ht hi
  | reading ht ho he hxj hc hp => exact .reading ht ho he hxj hc fun env' hs => hp env' fun _ hm => hs (by simp [hm])
  | writing ht ho he hc => exact .writing ht ho he hc
  | converted ht ho he hxj hr => exact .converted ht ho he hxj (hr.mono fun _ hm => by simp [hm])
  | updated ht ho he => exact .updated ht ho he

theorem inv_run (ros : Costmap2DROS K) (calls : List (Call K)) (sched : List (Turn K)) :
    Inv calls ros.costmap ros.globalFrame (poses ros sched) (run ros calls sched) (orderFrom (init ros calls) sched) := by
  induction sched using List.reverseRecOn with
  | nil =>
    refine ⟨by simp [run, init], rfl, by simp [poses, run, init], by simp [orderFrom], by simp [orderFrom], fun i x hx => ?_, fun _ => rfl,
      fun i hi => by simp [run, init] at hi⟩
    exact .waiting (by simp [run, init, hx]) (by simp [orderFrom])
  | append_singleton sched t ih =>
    have e : run ros calls (sched ++ [t]) = step (run ros calls sched) t := by
      unfold run
      rw [List.foldl_append]
      rfl
    rw [e, orderFrom_append]
    show Inv _ _ _ _ _ (orderFrom (init ros calls) sched ++ (enters (run ros calls sched) t ++ []))
    rw [List.append_nil]
    cases t with
    | thread i =>
      have : poses ros (sched ++ [.thread i]) = poses ros sched := by simp [poses]
      rw [this]
      exact inv_step ih i
    | moved p n =>
      have : poses ros (sched ++ [.moved p n]) = poses ros sched ++ [(p, n)] := by simp [poses]
      rw [this]
      simpa [enters] using inv_moved ih p n

theorem sound_after {calls : List (Call K)} (hu : ∀ x ∈ calls, ∀ c, Sound c → Sound (x.effect c)) {c : Costmap2D K} (hc : Sound c)
    (order : List Nat) : Sound (after calls c order) := by
  induction order generalizing c with
  | nil => exact hc
  | cons i order ih =>
    refine ih (c := match calls[i]? with | some x => x.effect c | none => c) ?_
    cases hx : calls[i]? with
    | none => exact hc
    | some x => exact hu x (List.mem_of_getElem? hx) c hc

/-! ## Every thread ends -/

/-- Only the owner of the lock is inside. -/
def Mutex (s : St K) : Prop := ∀ i j, s.threads[i]? = some (.inside j) → s.owner = some i

theorem Inv.mutex {calls : List (Call K)} {c0 : Costmap2D K} {frame : String} {env : List (Option (Vec K) × Nat)} {s : St K}
    {order : List Nat} (h : Inv calls c0 frame env s order) : Mutex s := by
  intro i j hj
  have hi : i < calls.length := by
    rw [← h.len]
    exact (List.getElem?_eq_some_iff.mp hj).1
  cases h.good i _ (List.getElem?_eq_getElem hi) with
  | waiting ht => rw [hj] at ht; simp at ht
  | reading _ ho => exact ho
  | writing _ ho => exact ho
  | converted ht => rw [hj] at ht; simp at ht
  | updated ht => rw [hj] at ht; simp at ht

/-- While a thread holds the lock, the turns of others change nothing about threads and lock. -/
theorem step_other {s : St K} (hm : Mutex s) {i : Nat} (ho : s.owner = some i) {t : Turn K} (ht : t ≠ .thread i) :
    (step s t).threads = s.threads ∧ (step s t).owner = s.owner := by
  cases t with
  | moved p n => exact ⟨rfl, rfl⟩
  | thread k =>
    have hk : k ≠ i := fun h => ht (by rw [h])
    cases hp : s.threads[k]? with
    | none => simp [step, hp]
    | some p =>
      cases p with
      | waiting j => simp [step, hp, ho]
      | inside j =>
        have := hm k j hp
        rw [ho, Option.some.injEq] at this
        exact absurd this.symm hk
      | finished r => simp [step, hp]

/-- The thread has not returned. -/
def Phase.isOpen : Phase K → Bool
  | .finished _ => false
  | _ => true

section Fair
variable {σ : Nat → Turn K} {f : Nat → St K}

theorem next_turn (hf : ∀ n, f (n + 1) = step (f n) (σ n)) (hm : ∀ n, Mutex (f n)) {i : Nat} :
    ∀ (d n : Nat), (f n).owner = some i → σ (n + d) = .thread i →
      ∃ m, n ≤ m ∧ σ m = .thread i ∧ (f m).threads = (f n).threads ∧ (f m).owner = some i := by
  intro d
  induction d with
  | zero => exact fun n ho h => ⟨n, le_rfl, h, rfl, ho⟩
  | succ d ih =>
    intro n ho h
    by_cases hn : σ n = .thread i
    · exact ⟨n, le_rfl, hn, rfl, ho⟩
    · obtain ⟨h1, h2⟩ := step_other (hm n) ho hn
      rw [← hf n] at h1 h2
      obtain ⟨m, g1, g2, g3, g4⟩ := ih (n + 1) (h2.trans ho) (by rw [show n + 1 + d = n + (d + 1) by omega]; exact h)
      exact ⟨m, by omega, g2, g3.trans h1, g4⟩

theorem convert_ends (hf : ∀ n, f (n + 1) = step (f n) (σ n)) (hm : ∀ n, Mutex (f n)) {i : Nat}
    (hfair : ∀ n, ∃ m, n ≤ m ∧ σ m = .thread i) (p : Prog K (Out K)) :
    ∀ n, (f n).threads[i]? = some (.inside (.convert p)) → ∃ m r, n ≤ m ∧ (f m).owner = none ∧
      (f m).threads = (f n).threads.set i (.finished r) := by
  induction p with
  | done r =>
    intro n h
    obtain ⟨d, hd, hd'⟩ := hfair n
    obtain ⟨m, h1, h2, h3, h4⟩ := next_turn hf hm (d - n) n (hm n i _ h) (by rw [Nat.add_sub_cancel' hd]; exact hd')
    refine ⟨m + 1, some r, by omega, ?_, ?_⟩ <;> rw [hf m, h2] <;> simp [step, h3, h]
  | ask q k ih =>
    intro n h
    obtain ⟨d, hd, hd'⟩ := hfair n
    obtain ⟨m, h1, h2, h3, h4⟩ := next_turn hf hm (d - n) n (hm n i _ h) (by rw [Nat.add_sub_cancel' hd]; exact hd')
    have hl : i < (f n).threads.length := (List.getElem?_eq_some_iff.mp h).1
    have e : (f (m + 1)).threads = (f n).threads.set i (.inside (.convert (k (q.eval (f m).ros)))) := by
      rw [hf m, h2]
      simp [step, h3, h]
    obtain ⟨m', r, g1, g2, g3⟩ := ih (q.eval (f m).ros) (m + 1) (by rw [e, List.getElem?_set_self hl])
    exact ⟨m', r, by omega, g2, by rw [g3, e, List.set_set]⟩

theorem update_ends (hf : ∀ n, f (n + 1) = step (f n) (σ n)) (hm : ∀ n, Mutex (f n)) {i : Nat}
    (hfair : ∀ n, ∃ m, n ≤ m ∧ σ m = .thread i) (ws : List (Costmap2D K → Costmap2D K)) :
    ∀ n, (f n).threads[i]? = some (.inside (.update ws)) → ∃ m r, n ≤ m ∧ (f m).owner = none ∧
      (f m).threads = (f n).threads.set i (.finished r) := by
  induction ws with
  | nil =>
    intro n h
    obtain ⟨d, hd, hd'⟩ := hfair n
    obtain ⟨m, h1, h2, h3, h4⟩ := next_turn hf hm (d - n) n (hm n i _ h) (by rw [Nat.add_sub_cancel' hd]; exact hd')
    refine ⟨m + 1, none, by omega, ?_, ?_⟩ <;> rw [hf m, h2] <;> simp [step, h3, h]
  | cons w ws ih =>
    intro n h
    obtain ⟨d, hd, hd'⟩ := hfair n
    obtain ⟨m, h1, h2, h3, h4⟩ := next_turn hf hm (d - n) n (hm n i _ h) (by rw [Nat.add_sub_cancel' hd]; exact hd')
    have hl : i < (f n).threads.length := (List.getElem?_eq_some_iff.mp h).1
    have e : (f (m + 1)).threads = (f n).threads.set i (.inside (.update ws)) := by
      rw [hf m, h2]
      simp [step, h3, h]
    obtain ⟨m', r, g1, g2, g3⟩ := ih (m + 1) (by rw [e, List.getElem?_set_self hl])
    exact ⟨m', r, by omega, g2, by rw [g3, e, List.set_set]⟩

/-- The owner of the lock releases it. -/
theorem owner_ends (hf : ∀ n, f (n + 1) = step (f n) (σ n)) (hm : ∀ n, Mutex (f n)) {i : Nat}
    (hfair : ∀ n, ∃ m, n ≤ m ∧ σ m = .thread i) {n : Nat} {j : Job K} (h : (f n).threads[i]? = some (.inside j)) :
    ∃ m r, n ≤ m ∧ (f m).owner = none ∧ (f m).threads = (f n).threads.set i (.finished r) := by
  cases j with
  | convert p => exact convert_ends hf hm hfair p n h
  | update ws => exact update_ends hf hm hfair ws n h

/-- When the lock is free and a thread waits, one gets it. -/
theorem someone_enters (hf : ∀ n, f (n + 1) = step (f n) (σ n)) (hm : ∀ n, Mutex (f n)) {i : Nat} {j : Job K} :
    ∀ (d n : Nat), (f n).owner = none → (f n).threads[i]? = some (.waiting j) → σ (n + d) = .thread i →
      ∃ m k j', n ≤ m ∧ (f n).threads[k]? = some (.waiting j') ∧ (f m).threads = (f n).threads.set k (.inside j') := by
  intro d
  induction d with
  | zero =>
    intro n ho h ht
    refine ⟨n + 1, i, j, by omega, h, ?_⟩
    rw [hf n, show σ n = .thread i from ht]
    simp [step, h, ho]
  | succ d ih =>
    intro n ho h ht
    have key : (∃ k j', (f n).threads[k]? = some (.waiting j') ∧ (f (n + 1)).threads = (f n).threads.set k (.inside j')) ∨
        ((f (n + 1)).threads = (f n).threads ∧ (f (n + 1)).owner = none) := by
      rw [hf n]
      cases σ n with
      | moved p t => exact Or.inr ⟨rfl, ho⟩
      | thread k =>
        cases hp : (f n).threads[k]? with
        | none => exact Or.inr (by simp [step, hp, ho])
        | some x =>
          cases x with
          | waiting j' => exact Or.inl ⟨k, j', hp, by simp [step, hp, ho]⟩
          | inside j' =>
            have := hm n k j' hp
            rw [ho] at this
            exact absurd this (by simp)
          | finished r => exact Or.inr (by simp [step, hp, ho])
    rcases key with ⟨k, j', h1, h2⟩ | ⟨h1, h2⟩
    · exact ⟨n + 1, k, j', by omega, h1, h2⟩
    · obtain ⟨m, k, j', g1, g2, g3⟩ := ih (n + 1) h2 (by rw [h1]; exact h) (by rw [show n + 1 + d = n + (d + 1) by omega]; exact ht)
      rw [h1] at g2 g3
      exact ⟨m, k, j', by omega, g2, g3⟩

theorem countP_set {l : List (Phase K)} {i : Nat} {x y : Phase K} (h : l[i]? = some x) (hx : x.isOpen = true) (hy : y.isOpen = false) :
    (l.set i y).countP Phase.isOpen < l.countP Phase.isOpen := by
  induction l generalizing i with
  | nil => simp at h
  | cons a l ih =>
    cases i with
    | zero =>
      simp only [List.getElem?_cons_zero, Option.some.injEq] at h
      subst h
      simp [hx, hy]
    | succ i =>
      simp only [List.getElem?_cons_succ] at h
      have := ih h
      simp only [List.set_cons_succ, List.countP_cons]
      omega

theorem all_end (hf : ∀ n, f (n + 1) = step (f n) (σ n)) (hm : ∀ n, Mutex (f n))
    (hh : ∀ n i, (f n).owner = some i → ∃ j, (f n).threads[i]? = some (.inside j))
    {N : Nat} (hN : ∀ n, (f n).threads.length = N) (hfair : ∀ i < N, ∀ n, ∃ m, n ≤ m ∧ σ m = .thread i) :
    ∀ (u n : Nat), (f n).threads.countP Phase.isOpen ≤ u → ∃ m, AllDone (f m) := by
  intro u
  induction u with
  | zero =>
    intro n h
    refine ⟨n, fun x hx => ?_⟩
    have := List.countP_eq_zero.mp (Nat.le_zero.mp h) x hx
    cases x with
    | finished r => exact ⟨r, rfl⟩
    | waiting j => simp [Phase.isOpen] at this
    | inside j => simp [Phase.isOpen] at this
  | succ u ih =>
    intro n h
    have lt : ∀ {n i : Nat} {x : Phase K}, (f n).threads[i]? = some x → i < N := fun hx => by
      rw [← hN]
      exact (List.getElem?_eq_some_iff.mp hx).1
    have own : ∀ {n i : Nat} {j : Job K}, (f n).threads[i]? = some (.inside j) → (f n).threads.countP Phase.isOpen ≤ u + 1 →
        ∃ m, AllDone (f m) := by
      intro n i j hj hu
      obtain ⟨m, r, -, -, g⟩ := owner_ends hf hm (hfair i (lt hj)) hj
      refine ih m ?_
      rw [g]
      have := countP_set hj (y := .finished r) rfl rfl
      omega
    cases ho : (f n).owner with
    | some i =>
      obtain ⟨j, hj⟩ := hh n i ho
      exact own hj h
    | none =>
      by_cases hw : ∃ (i : Nat) (j : Job K), (f n).threads[i]? = some (Phase.waiting j)
      · obtain ⟨i, j, hj⟩ := hw
        obtain ⟨d, hd, hd'⟩ := hfair i (lt hj) n
        obtain ⟨m, k, j', -, g2, g3⟩ := someone_enters hf hm (d - n) n ho hj (by rw [Nat.add_sub_cancel' hd]; exact hd')
        have hk : k < (f n).threads.length := (List.getElem?_eq_some_iff.mp g2).1
        refine own (n := m) (i := k) (j := j') (by rw [g3, List.getElem?_set_self hk]) ?_
        have : ∀ (l : List (Phase K)) (i : Nat), l[i]? = some (.waiting j') →
            (l.set i (.inside j')).countP Phase.isOpen = l.countP Phase.isOpen := by
          intro l
          induction l with
          | nil => exact fun i h => by simp at h
          | cons a l ihl =>
            intro i hi
            cases i with
            | zero =>
              simp only [List.getElem?_cons_zero, Option.some.injEq] at hi
              subst hi
              simp [List.countP_cons, Phase.isOpen]
            | succ i =>
              simp only [List.getElem?_cons_succ] at hi
              simp only [List.set_cons_succ, List.countP_cons, ihl i hi]
        rw [g3, this _ _ g2]
        exact h
      · refine ⟨n, fun x hx => ?_⟩
        obtain ⟨i, hi⟩ := List.getElem?_of_mem hx
        cases x with
        | finished r => exact ⟨r, rfl⟩
        | waiting j => exact absurd ⟨i, j, hi⟩ hw
        | inside j =>
          have := hm n i j hi
          rw [ho] at this
          exact absurd this (by simp)

end Fair

end Locking
end CostMapModel

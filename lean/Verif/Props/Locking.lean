import Verif.Lemmas.Locking

/-!
# Property C84: a conversion sees one state of the ROS costmap
-/

namespace CostMapModel
namespace Locking
variable {K : Type} [Field K] [LinearOrder K] [FloorRing K]

/-- C84. On a costmap that does not change, the conversions step by step are those of `Verif/Model/Costmap2D.lean`. -/
theorem C84_steps (c : Costmap2DROS K) (l : String) (m : CostMap K) :
    (Sound c.costmap → (fullProg l m).eval c = CostMap.fromCostmap2DROS c l m) ∧
      ∀ g, (robotProg g l m).eval c = CostMap.fromCostmap2DROSAtRobotPose c g l m :=
  ⟨fun h => full_eval c h l m, fun g => robot_eval c g l m⟩

/-- C84. Conversions and updates that run at the same time behave as if they had run one after the other, in an order that
extends the order of calls that do not overlap: whatever the schedule, there is an order of the threads that have got the lock
so far, which later turns only extend, such that a conversion that has returned gives what the conversion of the costmap after exactly
the whole updates before it in the order gives, with a pose of the robot and a time that were current at some point; and while
nobody holds the lock, the costmap is the result of the whole updates. The updates need to leave a sound costmap only when they are
done. -/
theorem C84_one_state (ros : Costmap2DROS K) (calls : List (Call K)) (hs : Sound ros.costmap)
    (hu : ∀ x ∈ calls, ∀ c, Sound c → Sound (x.effect c)) :
    ∃ order : List (Turn K) → List Nat, (∀ sched more, order sched <+: order (sched ++ more)) ∧ ∀ sched,
      (order sched).Nodup ∧ (∀ i < calls.length, i ∈ order sched ↔ ¬ Waiting (run ros calls sched) i) ∧
      (∀ i r, Returned (run ros calls sched) i (some r) → ∃ x pre p n, calls[i]? = some x ∧ pre ++ [i] <+: order sched ∧
        (∃ n', (p, n') ∈ poses ros sched) ∧ (∃ p', (p', n) ∈ poses ros sched) ∧
        x.result ⟨after calls ros.costmap pre, ros.globalFrame, p, n⟩ = some r) ∧
      ((run ros calls sched).owner = none → (run ros calls sched).ros.costmap = after calls ros.costmap (order sched)) := by
  refine ⟨orderFrom (init ros calls), fun sched more => ?_, fun sched => ?_⟩
  · rw [orderFrom_append]
    exact List.prefix_append _ _
  have h := inv_run ros calls sched
  generalize run ros calls sched = s at h ⊢
  refine ⟨h.nodup, fun i hi => ?_, fun i r hr => ?_, h.free⟩
  · have := h.good i _ (List.getElem?_eq_getElem hi)
    cases this with
    | waiting ht hn => exact ⟨fun hc => absurd hc hn, fun hc => absurd ⟨_, ht⟩ hc⟩
    | reading ht _ he =>
      refine ⟨fun _ ⟨j, hj⟩ => ?_, fun _ => by rw [he]; simp⟩
      rw [ht] at hj
      simp at hj
    | writing ht _ he =>
      refine ⟨fun _ ⟨j, hj⟩ => ?_, fun _ => by rw [he]; simp⟩
      rw [ht] at hj
      simp at hj
    | converted ht _ he =>
      refine ⟨fun _ ⟨j, hj⟩ => ?_, fun _ => he.subset (by simp)⟩
      rw [ht] at hj
      simp at hj
    | updated ht _ he =>
      refine ⟨fun _ ⟨j, hj⟩ => ?_, fun _ => he⟩
      rw [ht] at hj
      simp at hj
  · unfold Returned at hr
    have hi : i < calls.length := by
      rw [← h.len]
      exact (List.getElem?_eq_some_iff.mp hr).1
    have hx := List.getElem?_eq_getElem hi
    generalize calls[i] = x at hx
    cases h.good i x hx with
    | waiting ht => rw [hr] at ht; simp at ht
    | reading ht => rw [hr] at ht; simp at ht
    | writing ht => rw [hr] at ht; simp at ht
    | updated ht => rw [hr] at ht; simp at ht
    | @converted r' P pre ht ho he hxj hm =>
      rw [hr] at ht
      simp only [Option.some.injEq, Phase.finished.injEq] at ht
      subst ht
      cases x with
      | update ws => simp [Call.job] at hxj
      | full l m =>
        simp only [Call.job, Job.convert.injEq] at hxj
        subst hxj
        refine ⟨_, pre, ros.robot, ros.now, hx, he, ⟨_, List.mem_cons_self⟩, ⟨_, List.mem_cons_self⟩, ?_⟩
        rw [hm.of_still (still_full l m) ros.robot ros.now]
        exact congrArg some (full_eval _ (sound_after hu hs pre) l m).symm
      | atRobot g l m =>
        simp only [Call.job, Job.convert.injEq] at hxj
        subst hxj
        obtain ⟨p, n, h1, h2, h3⟩ := hm.robot
        refine ⟨_, pre, p, n, hx, he, h1, h2, ?_⟩
        rw [← h3]
        exact congrArg some (robot_eval _ g l m).symm

/-- C84. No two threads hold the lock at the same time. -/
theorem C84_mutual_exclusion (ros : Costmap2DROS K) (calls : List (Call K)) (sched : List (Turn K)) {i k : Nat} {j j' : Job K}
    (hi : (run ros calls sched).threads[i]? = some (.inside j)) (hk : (run ros calls sched).threads[k]? = some (.inside j')) :
    i = k := by
  have h := (inv_run ros calls sched).mutex
  have h1 := h i j hi
  rw [h k j' hk, Option.some.injEq] at h1
  exact h1.symm

/-- C84. In every schedule that gives each thread a turn again and again, all conversions and updates return. -/
theorem C84_all_return (ros : Costmap2DROS K) (calls : List (Call K)) {σ : Nat → Turn K}
    (hfair : ∀ i < calls.length, ∀ n, ∃ m, n ≤ m ∧ σ m = .thread i) : ∃ n, AllDone (run ros calls ((List.range n).map σ)) := by
  refine all_end (σ := σ) (f := fun n => run ros calls ((List.range n).map σ)) (N := calls.length) (fun n => ?_)
    (fun n => (inv_run ros calls _).mutex) (fun n => (inv_run ros calls _).held) (fun n => (inv_run ros calls _).len) hfair _ 0 le_rfl
  simp only [run]
  rw [List.range_succ, List.map_append, List.foldl_append]
  rfl

namespace Demo

/-- A costmap of two cells. -/
def ros : Costmap2DROS ℚ := ⟨⟨2, 1, 1, ⟨0, 0⟩, [0, 0]⟩, "map", none, 0⟩

/-- Both cells become lethal. -/
def lethal : List (Costmap2D ℚ → Costmap2D ℚ) :=
  [fun c => { c with costs := c.costs.set 0 254 }, fun c => { c with costs := c.costs.set 1 254 }]

/-- The costs in the layer. -/
def costs (r : Out ℚ) : List Cost := match r.2.data "l" with | some a => a.data | none => []

/-- A conversion and an update. -/
def calls : List (Call ℚ) := [.full "l" (CostMap.new []), .update lethal]

/-- The costs that the first thread returned. -/
def result (s : St ℚ) : List Cost := match s.threads[0]? with | some (Phase.finished (some r)) => costs r | _ => []

/-- After `n` turns of the conversion the update runs, then the conversion goes on. -/
def sched (n : Nat) : List (Turn ℚ) := List.replicate n (.thread 0) ++ List.replicate 4 (.thread 1) ++ List.replicate 3 (.thread 0)

end Demo

/-- With the lock, the update waits for the conversion. -/
example : Demo.result (run Demo.ros Demo.calls (Demo.sched 10)) = [0, 0] ∧
    (run Demo.ros Demo.calls (Demo.sched 10)).ros.costmap.costs = [0, 0] := by decide +kernel
/-- In the other order the conversion waits for the update. -/
example : Demo.result (run Demo.ros Demo.calls (.thread 1 :: Demo.sched 10 ++ List.replicate 20 (.thread 0))) = [254, 254] := by
  decide +kernel
example := C84_one_state Demo.ros Demo.calls rfl (by
  intro x hx c hc
  simp only [Demo.calls, List.mem_cons, List.not_mem_nil, or_false] at hx
  rcases hx with rfl | rfl
  · exact hc
  · unfold Sound at hc ⊢
    simpa [Call.effect, Demo.lethal] using hc)

/-- C84 is false of threads that do not take the lock, as the constructor of the demo's costmap server: the conversion
sees an update half done, which no order of the two gives. -/
theorem C84_false_without_lock :
    Demo.result ((Demo.sched 9).foldl step ⟨Demo.ros, none, Demo.calls.map fun c => .inside c.job⟩) = [0, 254] ∧
      ∀ order, after Demo.calls Demo.ros.costmap order = Demo.ros.costmap ∨
        after Demo.calls Demo.ros.costmap order = { Demo.ros.costmap with costs := [254, 254] } := by
  refine ⟨by decide +kernel, fun order => ?_⟩
  induction order using List.reverseRecOn with
  | nil => exact Or.inl rfl
  | append_singleton order i ih =>
    rw [after_append]
    rcases i with _ | _ | i
    · rw [after_one (x := .full "l" (CostMap.new [])) rfl]
      exact ih
    · rw [after_one (x := .update Demo.lethal) rfl]
      rcases ih with h | h <;> rw [h] <;> exact Or.inr rfl
    · have : Demo.calls[i + 1 + 1]? = none := rfl
      simpa [after, this] using ih

end Locking
end CostMapModel

import Verif.Lemmas.Broadcaster

/-!
# Property C83: the transform broadcaster, in every schedule

A program of the main thread is `a`, the start of the thread, `b`, and the destructor, where `a` and `b` add transforms, shut down
and spin (`Plain`).
-/

namespace CostMapModel
namespace Broadcaster
variable {T : Type}

/-- C83. Which uses of a broadcaster are safe in every schedule: those that start the thread exactly once, and add no transforms
after that, unless the thread was told to end before it was started. All others call `std::terminate` or have a data race in some
schedule. -/
theorem C83_safe_iff {p : List (Op T)} (hp : Op.destroy ∉ p) : Safe (p ++ [.destroy]) ↔
    ∃ a b, p = a ++ .start :: b ∧ Plain a ∧ Plain b ∧ ((∀ o ∈ b, ¬ o.IsAdd) ∨ ∃ o ∈ a, o.Ends) := by
  constructor
  · intro h
    obtain ⟨a, b, e, ha, hb⟩ := safe_start hp h
    refine ⟨a, b, e, ha, hb, safe_adds ha hb ?_⟩
    rw [e] at h
    simpa using h
  · rintro ⟨a, b, rfl, ha, hb, hq⟩ sched
    have := (inv_run ha hb hq sched).alive
    simpa using this

/-- C83. What is sent: in every schedule, rounds of all transforms that were added before the start, in the order of their
names, the first value of each name; nothing before the start; the last round may be under way, but not once the destructor has
returned. -/
theorem C83_sent {a b : List (Op T)} (ha : Plain a) (hb : Plain b) (hq : ∀ o ∈ b, ¬ o.IsAdd) :
    ∃ table : List (String × T), table.Pairwise (fun p q => p.1 < q.1) ∧ (∀ n t, (n, t) ∈ table ↔ firstAdd n a = some t) ∧
      ∀ sched, Rounds table (run (a ++ .start :: (b ++ [.destroy])) sched).sent ∧
        ((run (a ++ .start :: (b ++ [.destroy])) sched).gone = true →
          ∃ k, (run (a ++ .start :: (b ++ [.destroy])) sched).sent = (List.replicate k table).flatten) ∧
        ((∃ l, (run (a ++ .start :: (b ++ [.destroy])) sched).prog = l ++ .start :: (b ++ [.destroy])) →
          (run (a ++ .start :: (b ++ [.destroy])) sched).sent = []) := by
  refine ⟨table a, (table_spec a).1, (table_spec a).2, fun sched => ?_⟩
  have h := inv_run ha hb (Or.inl hq) sched
  generalize run (a ++ .start :: (b ++ [.destroy])) sched = s at h
  cases h with
  | before a1 a2 hae hp hs hpc hj hr hw hg hl ht he =>
    exact ⟨⟨0, [], List.nil_prefix, by simpa using hl⟩, fun h => by rw [hg] at h; exact absurd h (by simp), fun _ => hl⟩
  | live b1 b2 hbe hp hs hpc hj hg ht he hq' =>
    rw [table_noadd fun o ho => hq o (by rw [hbe]; simp [ho])] at ht
    refine ⟨?_, fun h => by rw [hg] at h; exact absurd h (by simp), fun ⟨l, hl⟩ => ?_⟩
    · rcases hq' with ⟨-, -, h⟩ | ⟨-, h, -⟩
      · unfold SentOk at h
        rw [ht] at h
        split at h
        · obtain ⟨k, part, e1, e2⟩ := h
          exact ⟨k, part, ⟨_, e1⟩, e2⟩
        · obtain ⟨k, e⟩ := h
          exact ⟨k, [], List.nil_prefix, by simpa using e⟩
      · exact ⟨0, [], List.nil_prefix, by simpa using h⟩
    · exfalso
      rw [hp] at hl
      have : (b2 ++ [Op.destroy]).length = (l ++ Op.start :: (b ++ [Op.destroy])).length := by rw [hl]
      rw [hbe] at this
      simp at this
      omega
  | after hp hs hpc hg ht hl =>
    rw [table_noadd hq] at ht
    obtain ⟨k, hk⟩ := hl
    rw [ht] at hk
    exact ⟨⟨k, [], List.nil_prefix, by simpa using hk⟩, fun _ => ⟨k, hk⟩, fun ⟨l, hl⟩ => by rw [hp] at hl; simp at hl⟩

/-- C83. When the destructor has returned, nothing is sent any more. -/
theorem C83_quiet_when_gone {a b : List (Op T)} (ha : Plain a) (hb : Plain b) (hq : (∀ o ∈ b, ¬ o.IsAdd) ∨ ∃ o ∈ a, o.Ends)
    {sched : List Turn} (h : (run (a ++ .start :: (b ++ [.destroy])) sched).gone = true) (more : List Turn) :
    (run (a ++ .start :: (b ++ [.destroy])) (sched ++ more)).gone = true ∧
      (run (a ++ .start :: (b ++ [.destroy])) (sched ++ more)).sent = (run (a ++ .start :: (b ++ [.destroy])) sched).sent := by
  rw [run_append]
  have hi := inv_run ha hb hq sched
  generalize run (a ++ .start :: (b ++ [.destroy])) sched = s at h hi
  have key : ∀ (l : List Turn) {s : St T}, Inv a b s → s.gone = true → (l.foldl step s).gone = true ∧ (l.foldl step s).sent = s.sent := by
    intro l
    induction l with
    | nil => exact fun _ h => ⟨h, rfl⟩
    | cons t l ih =>
      intro s hi h
      have hst : (step s t).gone = true ∧ (step s t).sent = s.sent := by
        cases hi with
        | before a1 a2 hae hp hs hpc hj hr hw hg hl ht he => rw [hg] at h; exact absurd h (by simp)
        | live b1 b2 hbe hp hs hpc hj hg ht he hq' => rw [hg] at h; exact absurd h (by simp)
        | after hp hs hpc hg ht hl =>
          unfold step
          rw [if_neg (by simp [hs])]
          cases t with
          | main => unfold mainStep; simp [hp, hg]
          | thread => unfold threadStep; simp [hpc, hg]
          | rosDown => exact ⟨hg, rfl⟩
      obtain ⟨g1, g2⟩ := ih (inv_step ha hb hq hi t) hst.1
      exact ⟨g1, g2.trans hst.2⟩
  exact key more hi h

/-- C83. The destructor returns in every fair schedule once ROS goes down, or if the program shuts down and does not spin: it is
enough that the main thread gets as many turns as it has calls, then the thread gets five more than there are calls, then
the main thread gets one. -/
theorem C83_destructor_returns {a b : List (Op T)} (ha : Plain a) (hb : Plain b)
    (hq : (∀ o ∈ b, ¬ o.IsAdd) ∨ ∃ o ∈ a, o.Ends) {s0 s1 s2 s3 : List Turn}
    (hend : .rosDown ∈ s0 ∨ (Op.shutdown ∈ a ++ b ∧ Op.spin ∉ a ++ b)) (h1 : a.length + b.length + 1 ≤ s1.count .main)
    (h2 : (a ++ b).length + 5 ≤ s2.count .thread) (h3 : .main ∈ s3) :
    (run (a ++ .start :: (b ++ [.destroy])) (s0 ++ (s1 ++ (s2 ++ s3)))).gone = true := by
  have hi0 := inv_run ha hb hq s0
  have hros : .rosDown ∈ s0 → (run (a ++ .start :: (b ++ [.destroy])) s0).ros = false :=
    ros_of_down fun l => (inv_run ha hb hq l).alive
  have hfree : (run (a ++ .start :: (b ++ [.destroy])) s0).ros = false ∨
      Op.spin ∉ (run (a ++ .start :: (b ++ [.destroy])) s0).prog := by
    rcases hend with h | ⟨-, h⟩
    · exact Or.inl (hros h)
    · refine Or.inr fun hh => h ?_
      have : Op.spin ∈ a ++ .start :: (b ++ [.destroy]) := prog_fold s0 hh
      simpa using this
  have hlen : (run (a ++ .start :: (b ++ [.destroy])) s0).prog.length ≤ a.length + b.length + 2 := by
    have key : ∀ (l : List Turn) {s : St T}, (l.foldl step s).prog.length ≤ s.prog.length := by
      intro l
      induction l with
      | nil => exact fun {s} => le_rfl
      | cons t l ih =>
        intro s
        refine le_trans (ih (s := step s t)) ?_
        unfold step
        split
        · exact le_rfl
        · cases t with
          | main =>
            simp only
            unfold mainStep
            split
            · exact le_rfl
            · next hp => rw [hp]; repeat' split
                         all_goals simp [hp]
          | thread => simp only [(threadStep_prog s).1]; exact le_rfl
          | rosDown => exact le_rfl
    refine le_trans (key s0) ?_
    show (a ++ Op.start :: (b ++ [Op.destroy])).length ≤ _
    simp
    omega
  have hah := ahead_fold ha hb hq s1 hi0 hfree
  rw [run_append, List.foldl_append]
  have hi1 := inv_fold ha hb hq s1 hi0
  have hlate : Late a b (s1.foldl step (run (a ++ .start :: (b ++ [.destroy])) s0)) := by
    refine ⟨hi1, ?_⟩
    unfold ahead at hah
    omega
  have hr1 : .rosDown ∈ s0 → (s1.foldl step (run (a ++ .start :: (b ++ [.destroy])) s0)).ros = false :=
    fun h => ros_fold s1 (hros h)
  generalize s1.foldl step (run (a ++ .start :: (b ++ [.destroy])) s0) = s at hlate hr1
  have htab : (table (a ++ b)).length ≤ (a ++ b).length := by
    have key : ∀ l : List (Op T), (table l).length ≤ l.length := by
      have ins : ∀ n (t : T) m, (insert n t m).length ≤ m.length + 1 := by
        intro n t m
        induction m with
        | nil => simp [insert]
        | cons p m ih =>
          unfold insert
          split
          · simp
          · split
            · simp
            · simpa using ih
      intro l
      induction l using List.reverseRecOn with
      | nil => simp [table]
      | append_singleton l o ih =>
        rw [table_append_one]
        cases o with
        | add n t => have := ins n t (table l); simp; omega
        | _ => simp; omega
    exact key _
  rcases hlate.cases with ⟨hg, hpc, hp⟩ | ⟨-, -, -, -, -, hstop, -⟩
  · have : ∀ (l : List Turn) {s : St T}, s.gone = true → s.prog = [] → s.pc = .done → (l.foldl step s).gone = true := by
      intro l
      induction l with
      | nil => exact fun h _ _ => h
      | cons t l ih =>
        intro s h1 h2 h3
        have : (step s t).gone = true ∧ (step s t).prog = [] ∧ (step s t).pc = .done := by
          unfold step
          split
          · exact ⟨h1, h2, h3⟩
          · cases t with
            | main => unfold mainStep; simp [h1, h2, h3]
            | thread => unfold threadStep; simp [h1, h2, h3]
            | rosDown => exact ⟨h1, h2, h3⟩
        exact ih this.1 this.2.1 this.2.2
    exact this _ hg hp hpc
  · refine late_ends ha hb hq hlate ?_ (by omega) h3
    rcases hend with h | ⟨h, -⟩
    · exact Or.inr (hr1 h)
    · exact hstop ⟨_, h, trivial⟩

/-- C83. Without a shutdown the destructor does not return as long as ROS is up, in whatever order the threads run. -/
theorem C83_destructor_hangs {p : List (Op T)} (hp : Op.shutdown ∉ p) {sched : List Turn} (h : .rosDown ∉ sched) :
    (run p sched).gone = false := (forever_run hp h).2.2.2.1

/-! ## The demo and the test -/

theorem testSuite_split : testSuite = testSuite.take 5 ++ .start :: [] := rfl

/-- C83. The demo (which spins) and the test (which shuts down) are safe in every schedule. -/
theorem C83_demo_safe : Safe demo ∧ Safe test := by
  constructor
  · refine (C83_safe_iff (p := testSuite ++ [.spin]) ?_).mpr
      ⟨testSuite.take 5, [.spin], rfl, ?_, ?_, Or.inl ?_⟩ <;> simp [testSuite, Plain, Op.IsAdd, Op.Ends]
  · refine (C83_safe_iff (p := testSuite ++ [.shutdown]) ?_).mpr
      ⟨testSuite.take 5, [.shutdown], rfl, ?_, ?_, Or.inl ?_⟩ <;> simp [testSuite, Plain, Op.IsAdd, Op.Ends]

/-- C83. The test ends in every schedule in which the main thread gets seven turns, then the thread eleven, then the main thread
one; the demo does so when ROS has gone down before. -/
theorem C83_demo_ends {s1 s2 s3 : List Turn} (h1 : 7 ≤ s1.count .main) (h2 : 11 ≤ s2.count .thread) (h3 : .main ∈ s3) :
    (run test (s1 ++ (s2 ++ s3))).gone = true ∧
      ∀ s0, .rosDown ∈ s0 → (run demo (s0 ++ (s1 ++ (s2 ++ s3)))).gone = true := by
  constructor
  · exact C83_destructor_returns (a := testSuite.take 5) (b := [.shutdown]) (s0 := []) (by simp [testSuite, Plain, Op.IsAdd, Op.Ends])
      (by simp [Plain, Op.IsAdd, Op.Ends]) (Or.inl (by simp [Op.IsAdd])) (Or.inr (by simp [testSuite])) (by simpa [testSuite] using h1)
      (by simpa [testSuite] using h2) h3
  · intro s0 h0
    exact C83_destructor_returns (a := testSuite.take 5) (b := [.spin]) (by simp [testSuite, Plain, Op.IsAdd, Op.Ends])
      (by simp [Plain, Op.IsAdd, Op.Ends]) (Or.inl (by simp [Op.IsAdd])) (Or.inl h0) (by simpa [testSuite] using h1)
      (by simpa [testSuite] using h2) h3

namespace Demo

/-- Two transforms, the second one twice. -/
def two : List (Op Nat) := [.add "b" 1, .add "a" 2, .add "b" 3]

end Demo

/-- A schedule in which one whole round and the beginning of another are sent before the shutdown. -/
example : (run (Demo.two ++ .start :: ([.shutdown] ++ [.destroy]))
    [.main, .main, .main, .main, .thread, .thread, .thread, .thread, .thread, .thread, .thread, .thread, .main, .thread]).sent =
      [("a", 2), ("b", 1), ("a", 2)] := by decide +kernel
example := C83_sent (a := Demo.two) (b := [.shutdown]) (by simp [Demo.two, Plain, Op.IsAdd, Op.Ends])
  (by simp [Plain, Op.IsAdd, Op.Ends]) (by simp [Op.IsAdd])
/-- Destroying a broadcaster that was not started, starting twice, and adding after the start. -/
example : ¬ Safe (Demo.two ++ [.destroy]) := by
  rw [C83_safe_iff (by simp [Demo.two])]
  rintro ⟨a, b, e, -⟩
  have : Op.start ∈ Demo.two := by rw [e]; simp
  simp [Demo.two] at this
example : (run [.start, .start, .destroy] [.main, .main] : St Nat).status = .terminated := rfl
example : (run [.start, .add "a" 1, .shutdown, .destroy] [.main, .thread, .thread, .main] : St Nat).status = .ub := rfl
example : (run [.start, .add "a" 1, .shutdown, .destroy] [.main, .main, .thread, .thread] : St Nat).status = .ub := rfl
example : (run (Demo.two ++ [.start, .destroy]) (List.replicate 5 .main ++ List.replicate 100 .thread ++ [.main])).gone = false :=
  C83_destructor_hangs (by simp [Demo.two]) (by simp)

end Broadcaster
end CostMapModel

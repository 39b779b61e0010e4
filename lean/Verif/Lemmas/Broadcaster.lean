import Verif.Spec.Broadcaster
import Mathlib.Data.List.Induction

/-!
# Lemmas: the transform broadcaster
-/

namespace CostMapModel
namespace Broadcaster
variable {T : Type}

/-! ## The map of transforms -/

/-- The map after a program. -/
def table (ops : List (Op T)) : List (String × T) :=
  ops.foldl (fun m o => match o with | .add n t => insert n t m | _ => m) []

theorem table_append_one (ops : List (Op T)) (o : Op T) :
    table (ops ++ [o]) = match o with | .add n t => insert n t (table ops) | _ => table ops := by
  unfold table
  rw [List.foldl_append]
  rfl

theorem mem_insert {n : String} {t : T} {p : String × T} : ∀ {m : List (String × T)}, p ∈ insert n t m → p = (n, t) ∨ p ∈ m
  | [], h => by simpa [insert] using h
  | q :: m, h => by
    unfold insert at h
    split at h
    · simpa using h
    · split at h
      · exact Or.inr h
      · rcases List.mem_cons.mp h with rfl | h
        · exact Or.inr (by simp)
        · rcases mem_insert h with h | h
          · exact Or.inl h
          · exact Or.inr (by simp [h])

theorem insert_sorted {n : String} {t : T} : ∀ {m : List (String × T)}, m.Pairwise (fun a b => a.1 < b.1) →
    (insert n t m).Pairwise fun a b => a.1 < b.1
  | [], _ => by simp [insert]
  | q :: m, h => by
    obtain ⟨h1, h2⟩ := List.pairwise_cons.mp h
    unfold insert
    split
    · next hlt =>
      refine List.pairwise_cons.mpr ⟨fun b hb => ?_, h⟩
      rcases List.mem_cons.mp hb with rfl | hb
      · exact hlt
      · exact lt_trans hlt (h1 b hb)
    · next hlt =>
      split
      · exact h
      · next hne =>
        refine List.pairwise_cons.mpr ⟨fun b hb => ?_, insert_sorted h2⟩
        rcases mem_insert hb with rfl | hb
        · exact lt_of_le_of_ne (not_lt.mp hlt) (Ne.symm hne)
        · exact h1 b hb

theorem mem_insert_iff {n : String} {t : T} {k : String} {v : T} : ∀ {m : List (String × T)}, m.Pairwise (fun a b => a.1 < b.1) →
    ((k, v) ∈ insert n t m ↔ (k, v) ∈ m ∨ (k = n ∧ v = t ∧ ∀ w, (n, w) ∉ m))
  | [], _ => by simp [insert]
  | q :: m, h => by
    obtain ⟨h1, h2⟩ := List.pairwise_cons.mp h
    unfold insert
    split
    · next hlt =>
      have hn : ∀ w, (n, w) ∉ q :: m := by
        intro w hw
        rcases List.mem_cons.mp hw with rfl | hw
        · exact lt_irrefl _ hlt
        · exact lt_irrefl _ (lt_trans hlt (h1 _ hw))
      rw [List.mem_cons, Prod.mk.injEq]
      constructor
      · rintro (⟨rfl, rfl⟩ | h)
        · exact Or.inr ⟨rfl, rfl, hn⟩
        · exact Or.inl h
      · rintro (h | ⟨rfl, rfl, -⟩)
        · exact Or.inr h
        · exact Or.inl ⟨rfl, rfl⟩
    · split
      · next heq =>
        constructor
        · exact Or.inl
        · rintro (h | ⟨rfl, rfl, h⟩)
          · exact h
          · exact absurd (show (k, q.2) ∈ q :: m by rw [heq]; simp) (h q.2)
      · next hne =>
        rw [List.mem_cons, mem_insert_iff h2, List.mem_cons]
        constructor
        · rintro (h | h | ⟨rfl, rfl, h⟩)
          · exact Or.inl (Or.inl h)
          · exact Or.inl (Or.inr h)
          · refine Or.inr ⟨rfl, rfl, fun w hw => ?_⟩
            rcases List.mem_cons.mp hw with hw | hw
            · exact hne (by rw [← hw])
            · exact h w hw
        · rintro ((h | h) | ⟨rfl, rfl, h⟩)
          · exact Or.inl h
          · exact Or.inr (Or.inl h)
          · exact Or.inr (Or.inr ⟨rfl, rfl, fun w hw => h w (by simp [hw])⟩)

theorem firstAdd_append (n : String) : ∀ (l : List (Op T)) (o : Op T),
    firstAdd n (l ++ [o]) = (firstAdd n l).or (firstAdd n [o])
  | [], o => by simp [firstAdd]
  | .add n' t :: l, o => by
    simp only [List.cons_append, firstAdd]
    split
    · rfl
    · exact firstAdd_append n l o
  | .start :: l, o => firstAdd_append n l o
  | .shutdown :: l, o => firstAdd_append n l o
  | .spin :: l, o => firstAdd_append n l o
  | .destroy :: l, o => firstAdd_append n l o

theorem table_spec (l : List (Op T)) : (table l).Pairwise (fun a b => a.1 < b.1) ∧
    ∀ n t, (n, t) ∈ table l ↔ firstAdd n l = some t := by
  induction l using List.reverseRecOn with
  | nil => exact ⟨List.Pairwise.nil, fun n t => by simp [table, firstAdd]⟩
  | append_singleton l o ih =>
    obtain ⟨h1, h2⟩ := ih
    rw [table_append_one]
    cases o with
    | add n' t' =>
      refine ⟨insert_sorted h1, fun n t => ?_⟩
      simp only
      rw [mem_insert_iff h1, h2, firstAdd_append]
      simp only [firstAdd]
      by_cases hn : n' = n
      · subst hn
        rw [if_pos rfl]
        cases hf : firstAdd n' l with
        | none => 
          simp only [Option.none_or, Option.some.injEq, true_and, reduceCtorEq, false_or]
          constructor
          · rintro ⟨rfl, -⟩; rfl
          · rintro rfl
            exact ⟨rfl, fun w hw => by rw [h2, hf] at hw; exact absurd hw (by simp)⟩
        | some v =>
          simp only [Option.some_or, Option.some.injEq, true_and, or_iff_left_iff_imp]
          rintro ⟨rfl, h⟩
          exact absurd ((h2 n' v).mpr hf) (h v)
      · rw [if_neg hn, Option.or_none]
        constructor
        · rintro (h | ⟨rfl, -⟩)
          · exact h
          · exact absurd rfl hn
        · exact Or.inl
    | start => exact ⟨h1, fun n t => by rw [firstAdd_append]; simpa [firstAdd] using h2 n t⟩
    | shutdown => exact ⟨h1, fun n t => by rw [firstAdd_append]; simpa [firstAdd] using h2 n t⟩
    | spin => exact ⟨h1, fun n t => by rw [firstAdd_append]; simpa [firstAdd] using h2 n t⟩
    | destroy => exact ⟨h1, fun n t => by rw [firstAdd_append]; simpa [firstAdd] using h2 n t⟩

theorem table_noadd {a : List (Op T)} : ∀ {b : List (Op T)}, (∀ o ∈ b, ¬ o.IsAdd) → table (a ++ b) = table a := by
  intro b
  induction b using List.reverseRecOn with
  | nil => simp
  | append_singleton b o ih =>
    intro h
    rw [← List.append_assoc, table_append_one]
    cases o with
    | add n t => exact absurd trivial (h (.add n t) (by simp))
    | _ => exact ih fun o ho => h o (by simp [ho])

/-! ## The invariant -/

/-- What was sent: whole rounds, and what the loop has done of the current one. -/
def SentOk (s : St T) : Prop :=
  match s.pc with
  | .sending rest => ∃ k part, part ++ rest = s.transforms ∧ s.sent = (List.replicate k s.transforms).flatten ++ part
  | _ => ∃ k, s.sent = (List.replicate k s.transforms).flatten

/-- The thread cannot come to read the map. -/
def Harmless (s : St T) : Prop :=
  s.read = false ∧ s.sent = [] ∧
    ((s.flag = true ∧ (s.pc = .testOk ∨ s.pc = .testFlag ∨ s.pc = .done)) ∨ (s.ros = false ∧ (s.pc = .testOk ∨ s.pc = .done)))

/-- The reachable states of a program `a; start; b; destroy`. -/
inductive Inv (a b : List (Op T)) (s : St T) : Prop where
  | before (a1 a2 : List (Op T)) (ha : a = a1 ++ a2) (hp : s.prog = a2 ++ .start :: (b ++ [.destroy])) (hs : s.status = .alive)
      (hpc : s.pc = .idle) (hj : s.joinable = false) (hr : s.read = false) (hw : s.wrote = false) (hg : s.gone = false)
      (hl : s.sent = []) (ht : s.transforms = table a1) (he : (∃ o ∈ a1, o.Ends) → s.flag = true ∨ s.ros = false)
  | live (b1 b2 : List (Op T)) (hb : b = b1 ++ b2) (hp : s.prog = b2 ++ [.destroy]) (hs : s.status = .alive)
      (hpc : s.pc ≠ .idle) (hj : s.joinable = true) (hg : s.gone = false) (ht : s.transforms = table (a ++ b1))
      (he : (∃ o ∈ a ++ b1, o.Ends) → s.flag = true ∨ s.ros = false)
      (hq : ((∀ o ∈ b, ¬ o.IsAdd) ∧ s.wrote = false ∧ SentOk s) ∨ Harmless s)
  | after (hp : s.prog = []) (hs : s.status = .alive) (hpc : s.pc = .done) (hg : s.gone = true)
      (ht : s.transforms = table (a ++ b)) (hl : ∃ k, s.sent = (List.replicate k s.transforms).flatten)

theorem Inv.alive {a b : List (Op T)} {s : St T} (h : Inv a b s) : s.status = .alive := by
  cases h <;> assumption

theorem inv_init (a b : List (Op T)) : Inv a b (init (a ++ .start :: (b ++ [.destroy]))) :=
  .before [] a rfl rfl rfl rfl rfl rfl rfl rfl rfl rfl (by simp)

theorem inv_main {a b : List (Op T)} (ha : Plain a) (hb : Plain b)
    (hq : (∀ o ∈ b, ¬ o.IsAdd) ∨ ∃ o ∈ a, o.Ends) {s : St T} (h : Inv a b s) : Inv a b (mainStep s) := by
  cases h with
  | before a1 a2 hae hp hs hpc hj hr hw hg hl ht he =>
    cases a2 with
    | nil =>
      have : mainStep s = { s with joinable := true, pc := .testOk, prog := b ++ [.destroy] } := by
        unfold mainStep
        rw [hp]
        simp [hg, hj]
      rw [this]
      have haa : a = a1 := by simpa using hae
      refine .live [] b rfl rfl hs (by simp) rfl hg (by simpa [haa] using ht) (fun h => he (by simpa [haa] using h)) ?_
      rcases hq with hq | hq
      · exact Or.inl ⟨hq, hw, ⟨0, by simpa using hl⟩⟩
      · refine Or.inr ⟨hr, hl, ?_⟩
        rcases he (haa ▸ hq) with h | h
        · exact Or.inl ⟨h, Or.inl rfl⟩
        · exact Or.inr ⟨h, Or.inl rfl⟩
    | cons o a2 =>
      have ho := ha o (by rw [hae]; simp)
      have hae' : a = (a1 ++ [o]) ++ a2 := by rw [hae]; simp
      cases o with
      | add n t =>
        have : mainStep s = { s with transforms := insert n t s.transforms, wrote := false, prog := a2 ++ .start :: (b ++ [.destroy]) } := by
          unfold mainStep
          rw [hp]
          simp [hg, hj, hw]
        rw [this]
        refine .before _ a2 hae' rfl hs hpc hj hr rfl hg hl (by rw [table_append_one, ← ht]) ?_
        rintro ⟨o, ho, ho'⟩
        rcases List.mem_append.mp ho with h | h
        · exact he ⟨o, h, ho'⟩
        · simp at h; subst h; exact absurd ho' (by simp [Op.Ends])
      | start => exact absurd ho (by simp [Op.IsAdd, Op.Ends])
      | destroy => exact absurd ho (by simp [Op.IsAdd, Op.Ends])
      | shutdown =>
        have : mainStep s = { s with flag := true, prog := a2 ++ .start :: (b ++ [.destroy]) } := by
          unfold mainStep
          rw [hp]
          simp [hg]
        rw [this]
        exact .before _ a2 hae' rfl hs hpc hj hr hw hg hl (by rw [table_append_one]; exact ht) fun _ => Or.inl rfl
      | spin =>
        cases hros : s.ros with
        | true =>
          have : mainStep s = s := by
            unfold mainStep
            rw [hp]
            simp [hg, hros]
          rw [this]
          exact .before a1 _ hae hp hs hpc hj hr hw hg hl ht he
        | false =>
          have : mainStep s = { s with prog := a2 ++ .start :: (b ++ [.destroy]) } := by
            unfold mainStep
            rw [hp]
            simp [hg, hros]
          rw [this]
          exact .before _ a2 hae' rfl hs hpc hj hr hw hg hl (by rw [table_append_one]; exact ht) fun _ => Or.inr hros
  | live b1 b2 hbe hp hs hpc hj hg ht he hq' =>
    cases b2 with
    | nil =>
      have hbb : b = b1 := by simpa using hbe
      cases hd : s.pc with
      | done =>
        have : mainStep s = { s with joinable := false, gone := true, prog := [] } := by
          unfold mainStep
          rw [hp]
          simp [hg, hj, hd]
        rw [this]
        refine .after rfl hs hd rfl (by rw [hbb]; exact ht) ?_
        rcases hq' with ⟨-, -, h⟩ | ⟨-, h, -⟩
        · unfold SentOk at h
          rw [hd] at h
          exact h
        · exact ⟨0, by simpa using h⟩
      | idle => exact absurd hd hpc
      | _ =>
        have : mainStep s = s := by
          unfold mainStep
          rw [hp]
          simp [hg, hj, hd]
        rw [this]
        exact .live b1 [] hbe hp hs hpc hj hg ht he hq'
    | cons o b2 =>
      have ho := hb o (by rw [hbe]; simp)
      have hbe' : b = (b1 ++ [o]) ++ b2 := by rw [hbe]; simp
      have htab : ∀ o' : Op T, table (a ++ (b1 ++ [o'])) = match o' with | .add n t => insert n t s.transforms | _ => s.transforms := by
        intro o'
        rw [← List.append_assoc, table_append_one, ht]
      cases o with
      | add n t =>
        rcases hq' with ⟨h, -⟩ | ⟨h1, h2, h3⟩
        · exact absurd trivial (h (.add n t) (by rw [hbe]; simp))
        · have : mainStep s = { s with transforms := insert n t s.transforms, wrote := true, prog := b2 ++ [.destroy] } := by
            unfold mainStep
            rw [hp]
            simp [hg, hj, h1]
          rw [this]
          refine .live _ b2 hbe' rfl hs hpc hj hg (by rw [htab]) ?_ (Or.inr ⟨h1, h2, h3⟩)
          rintro ⟨o, ho, ho'⟩
          rw [← List.append_assoc] at ho
          rcases List.mem_append.mp ho with h | h
          · exact he ⟨o, h, ho'⟩
          · simp at h; subst h; exact absurd ho' (by simp [Op.Ends])
      | start => exact absurd ho (by simp [Op.IsAdd, Op.Ends])
      | destroy => exact absurd ho (by simp [Op.IsAdd, Op.Ends])
      | shutdown =>
        have : mainStep s = { s with flag := true, prog := b2 ++ [.destroy] } := by
          unfold mainStep
          rw [hp]
          simp [hg]
        rw [this]
        refine .live _ b2 hbe' rfl hs hpc hj hg (by rw [htab]) (fun _ => Or.inl rfl) ?_
        rcases hq' with h | ⟨h1, h2, h3⟩
        · exact Or.inl h
        · refine Or.inr ⟨h1, h2, ?_⟩
          rcases h3 with ⟨_, h⟩ | ⟨h, h' | h'⟩
          · exact Or.inl ⟨rfl, h⟩
          · exact Or.inr ⟨h, Or.inl h'⟩
          · exact Or.inr ⟨h, Or.inr h'⟩
      | spin =>
        cases hros : s.ros with
        | true =>
          have : mainStep s = s := by
            unfold mainStep
            rw [hp]
            simp [hg, hros]
          rw [this]
          exact .live b1 _ hbe hp hs hpc hj hg ht he hq'
        | false =>
          have : mainStep s = { s with prog := b2 ++ [.destroy] } := by
            unfold mainStep
            rw [hp]
            simp [hg, hros]
          rw [this]
          exact .live _ b2 hbe' rfl hs hpc hj hg (by rw [htab]) (fun _ => Or.inr hros) hq'
  | after hp hs hpc hg ht hl =>
    have : mainStep s = s := by
      unfold mainStep
      rw [hp]
    rw [this]
    exact .after hp hs hpc hg ht hl

theorem inv_thread {a b : List (Op T)} {s : St T} (h : Inv a b s) : Inv a b (threadStep s) := by
  cases h with
  | before a1 a2 hae hp hs hpc hj hr hw hg hl ht he =>
    have : threadStep s = s := by unfold threadStep; rw [hpc]
    rw [this]
    exact .before a1 a2 hae hp hs hpc hj hr hw hg hl ht he
  | live b1 b2 hbe hp hs hpc hj hg ht he hq =>
    cases hd : s.pc with
    | idle => exact absurd hd hpc
    | testOk =>
      have : threadStep s = { s with pc := if s.ros then .testFlag else .done } := by unfold threadStep; rw [hd]
      rw [this]
      refine .live b1 b2 hbe hp hs (by simp only; split <;> simp) hj hg ht he ?_
      rcases hq with ⟨h1, h2, h3⟩ | ⟨h1, h2, h3⟩
      · refine Or.inl ⟨h1, h2, ?_⟩
        unfold SentOk at h3 ⊢
        rw [hd] at h3
        simp only at h3 ⊢
        split <;> first | exact h3 | (split at * <;> simp_all)
      · refine Or.inr ⟨h1, h2, ?_⟩
        simp only
        rcases h3 with ⟨h, -⟩ | ⟨h, -⟩
        · left
          refine ⟨h, ?_⟩
          split <;> simp
        · right
          exact ⟨h, by simp [h]⟩
    | testFlag =>
      rcases hq with ⟨h1, h2, h3⟩ | ⟨h1, h2, h3⟩
      · unfold SentOk at h3
        rw [hd] at h3
        simp only at h3
        cases hf : s.flag with
        | true =>
          have : threadStep s = { s with pc := .done } := by unfold threadStep; rw [hd]; simp [hg, hf]
          rw [this]
          exact .live b1 b2 hbe hp hs (by simp) hj hg ht he (Or.inl ⟨h1, h2, h3⟩)
        | false =>
          have : threadStep s = { s with pc := .sending s.transforms, read := true } := by
            unfold threadStep; rw [hd]; simp [hg, hf, h2]
          rw [this]
          refine .live b1 b2 hbe hp hs (by simp) hj hg ht (by simpa [hf] using he) (Or.inl ⟨h1, h2, ?_⟩)
          obtain ⟨k, hk⟩ := h3
          exact ⟨k, [], by simp, by simpa using hk⟩
      · rcases h3 with ⟨h, -⟩ | ⟨-, h | h⟩
        · have : threadStep s = { s with pc := .done } := by unfold threadStep; rw [hd]; simp [hg, h]
          rw [this]
          exact .live b1 b2 hbe hp hs (by simp) hj hg ht he (Or.inr ⟨h1, h2, Or.inl ⟨h, by simp⟩⟩)
        · rw [hd] at h; exact absurd h (by simp)
        · rw [hd] at h; exact absurd h (by simp)
    | sending rest =>
      rcases hq with ⟨h1, h2, h3⟩ | ⟨h1, h2, h3⟩
      · unfold SentOk at h3
        rw [hd] at h3
        simp only at h3
        obtain ⟨k, part, e1, e2⟩ := h3
        cases rest with
        | nil =>
          have : threadStep s = { s with pc := .sleeping } := by unfold threadStep; rw [hd]
          rw [this]
          refine .live b1 b2 hbe hp hs (by simp) hj hg ht he (Or.inl ⟨h1, h2, k + 1, ?_⟩)
          simp only [List.append_nil] at e1
          simp only
          rw [e2, List.replicate_succ', List.flatten_append, e1]
          simp
        | cons p ps =>
          have : threadStep s = { s with pc := .sending ps, sent := s.sent ++ [p] } := by
            unfold threadStep; rw [hd]; simp [hg]
          rw [this]
          refine .live b1 b2 hbe hp hs (by simp) hj hg ht he (Or.inl ⟨h1, h2, k, part ++ [p], ?_, ?_⟩)
          · simpa using e1
          · simp only
            rw [e2, List.append_assoc]
      · rcases h3 with ⟨-, h | h | h⟩ | ⟨-, h | h⟩ <;> (rw [hd] at h; exact absurd h (by simp))
    | sleeping =>
      have : threadStep s = { s with pc := .testOk } := by unfold threadStep; rw [hd]
      rw [this]
      refine .live b1 b2 hbe hp hs (by simp) hj hg ht he ?_
      rcases hq with ⟨h1, h2, h3⟩ | ⟨h1, h2, h3⟩
      · refine Or.inl ⟨h1, h2, ?_⟩
        unfold SentOk at h3
        rw [hd] at h3
        exact h3
      · rcases h3 with ⟨-, h | h | h⟩ | ⟨-, h | h⟩ <;> (rw [hd] at h; exact absurd h (by simp))
    | done =>
      have : threadStep s = s := by unfold threadStep; rw [hd]
      rw [this]
      exact .live b1 b2 hbe hp hs hpc hj hg ht he hq
  | after hp hs hpc hg ht hl =>
    have : threadStep s = s := by unfold threadStep; rw [hpc]
    rw [this]
    exact .after hp hs hpc hg ht hl

theorem inv_down {a b : List (Op T)} {s : St T} (h : Inv a b s) : Inv a b { s with ros := false } := by
  cases h with
  | before a1 a2 hae hp hs hpc hj hr hw hg hl ht he =>
    exact .before a1 a2 hae hp hs hpc hj hr hw hg hl ht fun _ => Or.inr rfl
  | live b1 b2 hbe hp hs hpc hj hg ht he hq =>
    refine .live b1 b2 hbe hp hs hpc hj hg ht (fun _ => Or.inr rfl) ?_
    rcases hq with h | ⟨h1, h2, h3⟩
    · exact Or.inl h
    · refine Or.inr ⟨h1, h2, ?_⟩
      rcases h3 with h | ⟨-, h⟩
      · exact Or.inl h
      · exact Or.inr ⟨rfl, h⟩
  | after hp hs hpc hg ht hl => exact .after hp hs hpc hg ht hl

theorem inv_step {a b : List (Op T)} (ha : Plain a) (hb : Plain b)
    (hq : (∀ o ∈ b, ¬ o.IsAdd) ∨ ∃ o ∈ a, o.Ends) {s : St T} (h : Inv a b s) (t : Turn) : Inv a b (step s t) := by
  unfold step
  rw [if_neg (by simp [h.alive])]
  cases t with
  | main => exact inv_main ha hb hq h
  | thread => exact inv_thread h
  | rosDown => exact inv_down h

theorem inv_fold {a b : List (Op T)} (ha : Plain a) (hb : Plain b) (hq : (∀ o ∈ b, ¬ o.IsAdd) ∨ ∃ o ∈ a, o.Ends) :
    ∀ (l : List Turn) {s : St T}, Inv a b s → Inv a b (l.foldl step s)
  | [], _, h => h
  | t :: l, _, h => inv_fold ha hb hq l (inv_step ha hb hq h t)

theorem inv_run {a b : List (Op T)} (ha : Plain a) (hb : Plain b) (hq : (∀ o ∈ b, ¬ o.IsAdd) ∨ ∃ o ∈ a, o.Ends)
    (sched : List Turn) : Inv a b (run (a ++ .start :: (b ++ [.destroy])) sched) :=
  inv_fold ha hb hq sched (inv_init a b)

theorem run_append (p : List (Op T)) (s t : List Turn) : run p (s ++ t) = t.foldl step (run p s) := List.foldl_append

/-! ## The destructor returns -/

/-- Something has told the thread to end. -/
def Stop (s : St T) : Prop := s.flag = true ∨ s.ros = false

/-- The steps the thread takes until it returns, at most. -/
def stepsLeft (s : St T) : Nat :=
  match s.pc with
  | .idle => 0
  | .testOk => 2
  | .testFlag => if s.flag then 1 else s.transforms.length + 5
  | .sending rest => rest.length + 4
  | .sleeping => 3
  | .done => 0

/-- The main thread is in the destructor, or the broadcaster is gone already. -/
def Late (a b : List (Op T)) (s : St T) : Prop := Inv a b s ∧ s.prog.length ≤ 1

theorem Late.cases {a b : List (Op T)} {s : St T} (h : Late a b s) :
    (s.gone = true ∧ s.pc = .done ∧ s.prog = []) ∨ (s.gone = false ∧ s.prog = [.destroy] ∧ s.joinable = true ∧ s.pc ≠ .idle ∧
      s.transforms = table (a ++ b) ∧ ((∃ o ∈ a ++ b, o.Ends) → Stop s) ∧ (SentOk s ∨ Harmless s)) := by
  obtain ⟨h, hl⟩ := h
  cases h with
  | before a1 a2 hae hp hs hpc hj hr hw hg hl' ht he => rw [hp] at hl; simp at hl; omega
  | live b1 b2 hbe hp hs hpc hj hg ht he hq =>
    rw [hp] at hl
    cases b2 with
    | nil =>
      have : b = b1 := by simpa using hbe
      subst this
      refine Or.inr ⟨hg, hp, hj, hpc, ht, he, ?_⟩
      rcases hq with ⟨-, -, h⟩ | h
      · exact Or.inl h
      · exact Or.inr h
    | cons o b2 => simp at hl
  | after hp hs hpc hg ht hl' => exact Or.inl ⟨hg, hpc, hp⟩

theorem rest_le {a b : List (Op T)} {s : St T} (h : Late a b s) {rest : List (String × T)} (hpc : s.pc = .sending rest) :
    rest.length ≤ (table (a ++ b)).length := by
  rcases h.cases with ⟨-, h2, -⟩ | ⟨-, -, -, -, h2, -, h3 | ⟨-, -, h3⟩⟩
  · rw [hpc] at h2; exact absurd h2 (by simp)
  · unfold SentOk at h3
    rw [hpc] at h3
    obtain ⟨k, part, e, -⟩ := h3
    rw [← h2, ← e]
    simp
  · rcases h3 with ⟨-, h | h | h⟩ | ⟨-, h | h⟩ <;> (rw [hpc] at h; exact absurd h (by simp))

theorem stepsLeft_le {a b : List (Op T)} {s : St T} (h : Late a b s) : stepsLeft s ≤ (table (a ++ b)).length + 5 := by
  unfold stepsLeft
  split
  · omega
  · omega
  · rcases h.cases with ⟨-, h2, -⟩ | ⟨-, -, -, -, h2, -, -⟩
    · next hpc => rw [hpc] at h2; exact absurd h2 (by simp)
    · rw [h2]; split <;> omega
  · next rest hpc => have := rest_le h hpc; omega
  · omega
  · omega

/-- One step in the destructor. -/
theorem late_step {a b : List (Op T)} (ha : Plain a) (hb : Plain b) (hq : (∀ o ∈ b, ¬ o.IsAdd) ∨ ∃ o ∈ a, o.Ends)
    {s : St T} (h : Late a b s) (hstop : Stop s) (t : Turn) :
    Late a b (step s t) ∧ Stop (step s t) ∧ (s.gone = true → (step s t).gone = true) ∧
      stepsLeft (step s t) ≤ stepsLeft s - (if t = .thread then 1 else 0) ∧ (t = .main → s.pc = .done → (step s t).gone = true) := by
  have hinv := inv_step ha hb hq h.1 t
  have hst : step s t = match t with | .main => mainStep s | .thread => threadStep s | .rosDown => { s with ros := false } := by
    unfold step
    rw [if_neg (by simp [h.1.alive])]
    cases t <;> rfl
  rw [hst] at hinv ⊢
  rcases h.cases with ⟨h1, h2, h3⟩ | ⟨h1, h2, h3, h4, h5, -, -⟩
  · have e1 : mainStep s = s := by unfold mainStep; rw [h3]
    have e2 : threadStep s = s := by unfold threadStep; rw [h2]
    have hz : stepsLeft s = 0 := by unfold stepsLeft; rw [h2]
    cases t with
    | main =>
      simp only [e1] at hinv ⊢
      exact ⟨⟨hinv, h.2⟩, hstop, fun h => h, by simp, fun _ _ => h1⟩
    | thread =>
      simp only [e2] at hinv ⊢
      exact ⟨⟨hinv, h.2⟩, hstop, fun h => h, by simp [hz], by simp⟩
    | rosDown =>
      simp only at hinv ⊢
      exact ⟨⟨hinv, h.2⟩, Or.inr rfl, fun h => h, by simp [stepsLeft], by simp⟩
  · cases t with
    | main =>
      simp only at hinv ⊢
      by_cases hd : s.pc = .done
      · have : mainStep s = { s with joinable := false, gone := true, prog := [] } := by
          unfold mainStep; rw [h2]; simp [h1, h3, hd]
        rw [this] at hinv ⊢
        exact ⟨⟨hinv, by simp⟩, hstop, fun _ => rfl, by simp [stepsLeft, hd], fun _ _ => rfl⟩
      · have : mainStep s = s := by
          unfold mainStep; rw [h2]
          cases hpc : s.pc <;> simp_all
        rw [this] at hinv ⊢
        exact ⟨⟨hinv, h.2⟩, hstop, fun h => h, by simp, fun _ hh => absurd hh hd⟩
    | thread =>
      simp only at hinv ⊢
      have key : (threadStep s).prog = s.prog ∧ (threadStep s).flag = s.flag ∧ (threadStep s).ros = s.ros ∧
          (threadStep s).gone = s.gone := by
        unfold threadStep
        split <;> (repeat' split) <;> exact ⟨rfl, rfl, rfl, rfl⟩
      refine ⟨⟨hinv, by rw [key.1]; exact h.2⟩, ?_, ?_, ?_, by simp⟩
      · unfold Stop; rw [key.2.1, key.2.2.1]; exact hstop
      · intro hg; rw [key.2.2.2]; exact hg
      · have hal := hinv.alive
        cases hpc : s.pc with
        | idle => exact absurd hpc h4
        | testOk =>
          unfold threadStep stepsLeft
          rw [hpc]
          simp only [if_true]
          rcases hstop with hf | hr
          · cases s.ros <;> simp [hf]
          · simp [hr]
        | testFlag =>
          cases hf : s.flag with
          | true => simp [threadStep, stepsLeft, hpc, h1, hf]
          | false =>
            cases hw : s.wrote with
            | true => 
              rw [show threadStep s = { s with status := .ub } by simp [threadStep, hpc, h1, hf, hw]] at hal
              exact absurd hal (by simp)
            | false => simp [threadStep, stepsLeft, hpc, h1, hf, hw]
        | sending rest => cases rest <;> simp [threadStep, stepsLeft, hpc, h1]
        | sleeping => simp [threadStep, stepsLeft, hpc]
        | done => simp [threadStep, stepsLeft, hpc]
    | rosDown =>
      simp only at hinv ⊢
      exact ⟨⟨hinv, h.2⟩, Or.inr rfl, fun h => h, by simp [stepsLeft], by simp⟩

theorem late_fold {a b : List (Op T)} (ha : Plain a) (hb : Plain b) (hq : (∀ o ∈ b, ¬ o.IsAdd) ∨ ∃ o ∈ a, o.Ends) :
    ∀ (l : List Turn) {s : St T}, Late a b s → Stop s → Late a b (l.foldl step s) ∧ Stop (l.foldl step s) ∧
      (s.gone = true → (l.foldl step s).gone = true) ∧ stepsLeft (l.foldl step s) ≤ stepsLeft s - l.count .thread
  | [], s, h, h' => ⟨h, h', fun h => h, by simp⟩
  | t :: l, s, h, h' => by
    obtain ⟨h1, h2, h3, h4, -⟩ := late_step ha hb hq h h' t
    obtain ⟨g1, g2, g3, g4⟩ := late_fold ha hb hq l h1 h2
    refine ⟨g1, g2, fun h => g3 (h3 h), ?_⟩
    have : List.count Turn.thread (t :: l) = l.count .thread + (if t = .thread then 1 else 0) := by
      rw [List.count_cons]
      cases t <;> rfl
    rw [this]
    show stepsLeft (l.foldl step (step s t)) ≤ _
    omega

theorem done_of_steps {s : St T} (h : stepsLeft s = 0) (h' : s.pc ≠ .idle) : s.pc = .done := by
  unfold stepsLeft at h
  split at h
  · next hpc => exact absurd hpc h'
  · omega
  · split at h <;> omega
  · omega
  · omega
  · next hpc => exact hpc

/-- In the destructor, enough steps of the thread and one of the main thread end it. -/
theorem late_ends {a b : List (Op T)} (ha : Plain a) (hb : Plain b) (hq : (∀ o ∈ b, ¬ o.IsAdd) ∨ ∃ o ∈ a, o.Ends)
    {s : St T} (h : Late a b s) (hstop : Stop s) {l l' : List Turn} (hl : (table (a ++ b)).length + 5 ≤ l.count .thread)
    (hl' : .main ∈ l') : ((l ++ l').foldl step s).gone = true := by
  obtain ⟨h1, h2, -, h4⟩ := late_fold ha hb hq l h hstop
  have hz : stepsLeft (l.foldl step s) = 0 := by have := stepsLeft_le h; omega
  rw [List.foldl_append]
  generalize l.foldl step s = s1 at h1 h2 hz
  obtain ⟨u, v, rfl⟩ := List.append_of_mem hl'
  obtain ⟨g1, g2, -, g4⟩ := late_fold ha hb hq u h1 h2
  rw [List.foldl_append, List.foldl_cons]
  have hz' : stepsLeft (u.foldl step s1) = 0 := by omega
  generalize u.foldl step s1 = s2 at g1 g2 hz'
  have hpc : s2.pc = .done := by
    rcases g1.cases with ⟨-, h, -⟩ | ⟨-, -, -, h, -⟩
    · exact h
    · exact done_of_steps hz' h
  obtain ⟨k1, k2, -, -, k5⟩ := late_step ha hb hq g1 g2 .main
  exact (late_fold ha hb hq v k1 k2).2.2.1 (k5 rfl hpc)

/-! ## The main thread gets to the destructor -/

/-- The number of calls before the destructor. -/
def ahead (s : St T) : Nat := s.prog.length - 1

theorem threadStep_prog (s : St T) : (threadStep s).prog = s.prog ∧ (threadStep s).ros = s.ros := by
  unfold threadStep
  split <;> (repeat' split) <;> exact ⟨rfl, rfl⟩

theorem mainStep_ros (s : St T) : (mainStep s).ros = s.ros := by
  unfold mainStep
  repeat' split
  all_goals rfl

theorem mainStep_mem (s : St T) {o : Op T} (h : o ∈ (mainStep s).prog) : o ∈ s.prog := by
  revert h
  unfold mainStep
  split
  · exact fun h => h
  · next hp =>
    rw [hp]
    repeat' split
    all_goals first
      | (intro h; exact List.mem_cons_of_mem _ h)
      | (intro h; simpa [hp] using h)

theorem ahead_main {a b : List (Op T)} (ha : Plain a) (hb : Plain b) {s : St T} (h : Inv a b s) (hf : s.ros = false ∨ Op.spin ∉ s.prog) : ahead (mainStep s) ≤ ahead s - 1 := by
  have plain : ∀ o ops, s.prog = o :: ops → o.IsAdd ∨ o.Ends → s.gone = false → (s.joinable = true → s.read = false ∨ ¬ o.IsAdd) →
      (mainStep s).prog = ops := by
    intro o ops hp ho hg hr
    unfold mainStep
    rw [hp]
    cases o with
    | add n t =>
      simp only [hg]
      cases hj : s.joinable with
      | false => simp
      | true =>
        rcases hr hj with h | h
        · simp [h]
        · exact absurd trivial h
    | shutdown => simp [hg]
    | spin =>
      rcases hf with h | h
      · simp [hg, h]
      · exact absurd (by rw [hp]; simp) h
    | start => exact absurd ho (by simp [Op.IsAdd, Op.Ends])
    | destroy => exact absurd ho (by simp [Op.IsAdd, Op.Ends])
  cases h with
  | before a1 a2 hae hp hs hpc hj hr hw hg hl ht he =>
    cases a2 with
    | nil =>
      have : (mainStep s).prog = b ++ [.destroy] := by
        unfold mainStep
        rw [hp]
        simp [hg, hj]
      unfold ahead
      rw [this, hp]
      simp
    | cons o a2 =>
      unfold ahead
      rw [plain o _ hp (ha o (by rw [hae]; simp)) hg (by simp [hj]), hp]
      simp
  | live b1 b2 hbe hp hs hpc hj hg ht he hq' =>
    cases b2 with
    | nil =>
      have : (mainStep s).prog.length ≤ 1 := by
        unfold mainStep
        rw [hp]
        simp only [hg, hj]
        cases s.pc <;> simp [hp]
      unfold ahead
      omega
    | cons o b2 =>
      unfold ahead
      rw [plain o _ hp (hb o (by rw [hbe]; simp)) hg ?_, hp]
      · simp
      · intro _
        rcases hq' with ⟨h, -⟩ | ⟨h, -⟩
        · exact Or.inr (h o (by rw [hbe]; simp))
        · exact Or.inl h
  | after hp hs hpc hg ht hl =>
    unfold mainStep ahead
    rw [hp]
    simp [hp]

theorem ahead_fold {a b : List (Op T)} (ha : Plain a) (hb : Plain b) (hq : (∀ o ∈ b, ¬ o.IsAdd) ∨ ∃ o ∈ a, o.Ends) :
    ∀ (l : List Turn) {s : St T}, Inv a b s → (s.ros = false ∨ Op.spin ∉ s.prog) → ahead (l.foldl step s) ≤ ahead s - l.count .main
  | [], s, _, _ => by simp
  | t :: l, s, h, hf => by
    have hi := inv_step ha hb hq h t
    have hst : step s t = match t with | .main => mainStep s | .thread => threadStep s | .rosDown => { s with ros := false } := by
      unfold step
      rw [if_neg (by simp [h.alive])]
      cases t <;> rfl
    have hf' : (step s t).ros = false ∨ Op.spin ∉ (step s t).prog := by
      rw [hst]
      cases t with
      | main =>
        rcases hf with h | h
        · exact Or.inl ((mainStep_ros s).trans h)
        · exact Or.inr fun hh => h (mainStep_mem s hh)
      | thread => simp only [(threadStep_prog s).1, (threadStep_prog s).2]; exact hf
      | rosDown => exact Or.inl rfl
    have hstep : ahead (step s t) ≤ ahead s - (if t = .main then 1 else 0) := by
      rw [hst]
      cases t with
      | main => simpa using ahead_main ha hb h hf
      | thread => unfold ahead; simp [(threadStep_prog s).1]
      | rosDown => simp [ahead]
    have ih := ahead_fold ha hb hq l hi hf'
    have : List.count Turn.main (t :: l) = l.count .main + (if t = .main then 1 else 0) := by
      rw [List.count_cons]
      cases t <;> rfl
    rw [this]
    show ahead (l.foldl step (step s t)) ≤ _
    omega

theorem ros_fold : ∀ (l : List Turn) {s : St T}, s.ros = false → (l.foldl step s).ros = false
  | [], _, h => h
  | t :: l, s, h => by
    refine ros_fold l ?_
    unfold step
    split
    · exact h
    · cases t with
      | main => exact (mainStep_ros s).trans h
      | thread => exact (threadStep_prog s).2.trans h
      | rosDown => rfl

theorem prog_fold {o : Op T} : ∀ (l : List Turn) {s : St T}, o ∈ (l.foldl step s).prog → o ∈ s.prog
  | [], _, h => h
  | t :: l, s, h => by
    have := prog_fold l h
    revert this
    unfold step
    split
    · exact fun h => h
    · cases t with
      | main => exact mainStep_mem s
      | thread => simp only [(threadStep_prog s).1]; exact fun h => h
      | rosDown => exact fun h => h

theorem ros_of_down {p : List (Op T)} {l : List Turn} (h : ∀ l', (run p l').status = .alive) (hl : .rosDown ∈ l) :
    (run p l).ros = false := by
  obtain ⟨u, v, rfl⟩ := List.append_of_mem hl
  rw [run_append, List.foldl_cons]
  refine ros_fold v ?_
  unfold step
  rw [if_neg (by simp [h u])]

/-! ## Programs that go wrong -/

/-- With ROS down, the main thread gets through calls that neither start nor destroy, unless it runs into a data race. -/
theorem plain_run : ∀ (l : List (Op T)) {rest : List (Op T)} {s : St T}, Plain l → s.prog = l ++ rest → s.status = .alive →
    s.gone = false → s.ros = false → ((∃ o ∈ l, o.IsAdd) → s.joinable = true → s.read = false) →
    ∃ s', (List.replicate l.length Turn.main).foldl step s = s' ∧ s'.prog = rest ∧ s'.status = .alive ∧ s'.gone = false ∧
      s'.ros = false ∧ s'.joinable = s.joinable ∧ s'.read = s.read
  | [], rest, s, _, hp, hs, hg, hr, _ => ⟨s, rfl, hp, hs, hg, hr, rfl, rfl⟩
  | o :: l, rest, s, hl, hp, hs, hg, hr, hj => by
    have hst : step s .main = mainStep s := by unfold step; rw [if_neg (by simp [hs])]
    have key : ∃ s1, mainStep s = s1 ∧ s1.prog = l ++ rest ∧ s1.status = .alive ∧ s1.gone = false ∧ s1.ros = false ∧
        s1.joinable = s.joinable ∧ s1.read = s.read := by
      have ho := hl o (by simp)
      refine ⟨_, rfl, ?_⟩
      unfold mainStep
      rw [hp]
      cases o with
      | add n t =>
        have : ¬ (s.joinable = true ∧ s.read = true) := by
          rintro ⟨h1, h2⟩
          rw [hj ⟨.add n t, by simp, trivial⟩ h1] at h2
          exact absurd h2 (by simp)
        simp only [List.cons_append, if_neg this]
        simp [hs, hg, hr]
      | shutdown => simp [hs, hg, hr]
      | spin => simp [hs, hg, hr]
      | start => exact absurd ho (by simp [Op.IsAdd, Op.Ends])
      | destroy => exact absurd ho (by simp [Op.IsAdd, Op.Ends])
    obtain ⟨s1, e, k1, k2, k3, k4, k5, k6⟩ := key
    obtain ⟨s2, e2, g1, g2, g3, g4, g5, g6⟩ := plain_run l (s := s1) (fun o ho => hl o (by simp [ho])) k1 k2 k3 k4 (by
      rintro ⟨o', h1, h2⟩ h3
      rw [k6]
      exact hj ⟨o', by simp [h1], h2⟩ (k5 ▸ h3))
    refine ⟨s2, ?_, g1, g2, g3, g4, g5.trans k5, g6.trans k6⟩
    rw [List.length_cons, List.replicate_succ, List.foldl_cons, hst, e, e2]

/-- Calls of `add` alone change nothing but the map. -/
theorem adds_run : ∀ (l : List (Op T)) {rest : List (Op T)} {s : St T}, (∀ o ∈ l, o.IsAdd) → s.prog = l ++ rest →
    s.status = .alive → s.gone = false → s.joinable = false → s.wrote = false →
    ∃ m, (List.replicate l.length Turn.main).foldl step s = { s with prog := rest, transforms := m }
  | [], rest, s, _, hp, _, _, _, _ => ⟨s.transforms, by
      simp only [List.length_nil, List.replicate_zero, List.foldl_nil, List.nil_append] at hp ⊢
      rw [← hp]⟩
  | o :: l, rest, s, hl, hp, hs, hg, hj, hw => by
    have hst : step s .main = mainStep s := by unfold step; rw [if_neg (by simp [hs])]
    have ho := hl o (by simp)
    cases o with
    | add n t =>
      have e : mainStep s = { s with transforms := insert n t s.transforms, prog := l ++ rest } := by
        unfold mainStep
        rw [hp]
        simp [hg, hj, hw]
      obtain ⟨m, hm⟩ := adds_run l (rest := rest) (s := { s with transforms := insert n t s.transforms, prog := l ++ rest })
        (fun o ho => hl o (by simp [ho])) rfl hs hg hj hw
      refine ⟨m, ?_⟩
      rw [List.length_cons, List.replicate_succ, List.foldl_cons, hst, e, hm]
    | _ => exact absurd ho (by simp [Op.IsAdd])

/-- A list has a first element with a property, if it has one. -/
theorem first_split {α : Type} {P : α → Prop} : ∀ {l : List α}, (∃ x ∈ l, P x) →
    ∃ u x v, l = u ++ x :: v ∧ P x ∧ ∀ y ∈ u, ¬ P y
  | [], h => absurd h (by simp)
  | a :: l, h => by
    by_cases ha : P a
    · exact ⟨[], a, l, rfl, ha, by simp⟩
    · obtain ⟨x, hx, hx'⟩ := h
      rcases List.mem_cons.mp hx with rfl | hx
      · exact absurd hx' ha
      · obtain ⟨u, y, v, e, h1, h2⟩ := first_split ⟨x, hx, hx'⟩
        refine ⟨a :: u, y, v, by rw [e]; rfl, h1, fun z hz => ?_⟩
        rcases List.mem_cons.mp hz with rfl | hz
        · exact ha
        · exact h2 z hz

theorem step_main {s : St T} (h : s.status = .alive) : step s .main = mainStep s := by
  unfold step; rw [if_neg (by simp [h])]

theorem step_thread {s : St T} (h : s.status = .alive) : step s .thread = threadStep s := by
  unfold step; rw [if_neg (by simp [h])]

theorem step_down {s : St T} (h : s.status = .alive) : step s .rosDown = { s with ros := false } := by
  unfold step; rw [if_neg (by simp [h])]

/-- A safe program starts the thread exactly once. -/
theorem safe_start {p : List (Op T)} (hp : Op.destroy ∉ p) (h : Safe (p ++ [.destroy])) :
    ∃ a b, p = a ++ .start :: b ∧ Plain a ∧ Plain b := by
  have hstart : ∀ o ∈ p, ¬ (o.IsAdd ∨ o.Ends) → o = .start := by
    intro o ho hn
    cases o with
    | start => rfl
    | destroy => exact absurd ho hp
    | add n t => exact absurd (Or.inl trivial) hn
    | shutdown => exact absurd (Or.inr trivial) hn
    | spin => exact absurd (Or.inr trivial) hn
  have h0 : ∀ q : List (Op T), step (init q) .rosDown = { init q with ros := false } := fun q => step_down rfl
  by_cases h1 : ∃ o ∈ p, ¬ (o.IsAdd ∨ o.Ends)
  · obtain ⟨a, o, b, e, ho, ha⟩ := first_split h1
    have ha' : Plain a := fun o ho => by have := ha o ho; tauto
    obtain rfl := hstart o (by rw [e]; simp) ho
    refine ⟨a, b, e, ha', ?_⟩
    by_contra hb
    have h2 : ∃ o ∈ b, ¬ (o.IsAdd ∨ o.Ends) := by
      unfold Plain at hb
      push Not at hb
      obtain ⟨o, h1, h2⟩ := hb
      exact ⟨o, h1, by tauto⟩
    obtain ⟨b1, o, b2, e', ho', hb1⟩ := first_split h2
    have hb1' : Plain b1 := fun o ho => by have := hb1 o ho; tauto
    obtain rfl := hstart o (by rw [e, e']; simp) ho'
    obtain ⟨s1, f1, g1, g2, g3, g4, g5, g6⟩ := plain_run a (rest := .start :: (b ++ [.destroy]))
      (s := { init (p ++ [.destroy]) with ros := false }) ha' (by show p ++ [.destroy] = _; rw [e]; simp) rfl rfl rfl (by simp [init])
    have hm1 : mainStep s1 = { s1 with joinable := true, pc := .testOk, prog := b ++ [.destroy] } := by
      unfold mainStep
      rw [g1]
      simp [g3, show s1.joinable = false from g5]
    obtain ⟨s2, f2, k1, k2, k3, k4, k5, k6⟩ := plain_run b1 (rest := .start :: (b2 ++ [.destroy]))
      (s := { s1 with joinable := true, pc := .testOk, prog := b ++ [.destroy] }) hb1' (by simp [e']) g2 g3 g4 (fun _ _ => g6)
    have hm2 : mainStep s2 = { s2 with status := .terminated } := by
      unfold mainStep
      rw [k1]
      simp [k3, show s2.joinable = true from k5]
    have := h (.rosDown :: (List.replicate a.length .main ++ (.main :: (List.replicate b1.length .main ++ [.main]))))
    unfold run at this
    rw [List.foldl_cons, h0, List.foldl_append, f1, List.foldl_cons, step_main g2, hm1, List.foldl_append, f2, List.foldl_cons,
      step_main k2, hm2] at this
    exact absurd this (by simp)
  · have ha : Plain p := fun o ho => by
      by_contra hc
      exact h1 ⟨o, ho, hc⟩
    obtain ⟨s1, f1, g1, g2, g3, g4, g5, g6⟩ := plain_run p (rest := [.destroy])
      (s := { init (p ++ [.destroy]) with ros := false }) ha rfl rfl rfl rfl (by simp [init])
    have hm1 : mainStep s1 = { s1 with status := .terminated } := by
      unfold mainStep
      rw [g1]
      simp [g3, show s1.joinable = false from g5]
    have := h (.rosDown :: (List.replicate p.length .main ++ [.main]))
    unfold run at this
    rw [List.foldl_cons, h0, List.foldl_append, f1, List.foldl_cons, step_main g2, hm1] at this
    exact absurd this (by simp)

/-- A safe program does not add after the start, unless the thread was told to end before. -/
theorem safe_adds {a b : List (Op T)} (ha : Plain a) (hb : Plain b) (h : Safe (a ++ .start :: (b ++ [.destroy]))) :
    (∀ o ∈ b, ¬ o.IsAdd) ∨ ∃ o ∈ a, o.Ends := by
  by_contra hc
  push Not at hc
  obtain ⟨⟨o, ho, ho'⟩, hne⟩ := hc
  have ha' : ∀ o ∈ a, o.IsAdd := fun o ho => (ha o ho).resolve_right (hne o ho)
  obtain ⟨b1, o, b2, e, h1, h2⟩ := first_split (P := fun o : Op T => o.IsAdd) ⟨o, ho, ho'⟩
  have hb1 : Plain b1 := fun o ho => hb o (by rw [e]; simp [ho])
  cases o with
  | add n t =>
    obtain ⟨m, hm⟩ := adds_run a (rest := .start :: (b ++ [.destroy])) (s := init (a ++ .start :: (b ++ [.destroy]))) ha' rfl rfl rfl rfl rfl
    let s1 : St T := ⟨m, false, true, .sending m, false, true, false, false, [], b ++ [.destroy], .alive⟩
    have hs1 : [Turn.main, .thread, .thread, .rosDown].foldl step
        { init (a ++ .start :: (b ++ [.destroy])) with prog := .start :: (b ++ [.destroy]), transforms := m } = s1 := by
      simp [step, mainStep, threadStep, init, s1]
    obtain ⟨s2, f2, k1, k2, k3, k4, k5, k6⟩ := plain_run b1 (rest := .add n t :: (b2 ++ [.destroy])) (s := s1) hb1
      (by simp [s1, e]) rfl rfl rfl (by rintro ⟨o, u, v⟩; exact absurd v (h2 o u))
    have hm2 : mainStep s2 = { s2 with status := .ub } := by
      unfold mainStep
      rw [k1]
      simp [k3, show s2.joinable = true from k5, show s2.read = true from k6]
    have := h (List.replicate a.length .main ++ ([.main, .thread, .thread, .rosDown] ++ (List.replicate b1.length .main ++ [.main])))
    unfold run at this
    rw [List.foldl_append, hm, List.foldl_append, hs1, List.foldl_append, f2, List.foldl_cons, step_main k2, hm2] at this
    exact absurd this (by simp)
  | _ => exact absurd h1 (by simp [Op.IsAdd])

/-! ## Without an end -/

/-- The thread goes on for ever. -/
def Forever (s : St T) : Prop := s.flag = false ∧ s.ros = true ∧ s.pc ≠ .done ∧ s.gone = false ∧ Op.shutdown ∉ s.prog

theorem forever_step {s : St T} (h : Forever s) {t : Turn} (ht : t ≠ .rosDown) : Forever (step s t) := by
  obtain ⟨h1, h2, h3, h4, h5⟩ := h
  unfold step
  split
  · exact ⟨h1, h2, h3, h4, h5⟩
  cases t with
  | rosDown => exact absurd rfl ht
  | main =>
    show Forever (mainStep s)
    have hmem : Op.shutdown ∉ (mainStep s).prog := fun h => h5 (mainStep_mem s h)
    refine ⟨?_, (mainStep_ros s).trans h2, ?_, ?_, hmem⟩ <;>
    · unfold mainStep
      split
      · assumption
      · next o ops hp =>
        have ho : o ≠ .shutdown := by
          rintro rfl
          exact h5 (by rw [hp]; simp)
        cases o <;> simp_all <;> (repeat' split) <;> simp_all
  | thread =>
    show Forever (threadStep s)
    refine ⟨?_, ?_, ?_, ?_, by rw [(threadStep_prog s).1]; exact h5⟩ <;>
    · unfold threadStep
      split <;> (repeat' split) <;> simp_all

theorem forever_run {p : List (Op T)} (hp : Op.shutdown ∉ p) : ∀ {l : List Turn}, Turn.rosDown ∉ l → Forever (run p l) := by
  intro l
  induction l using List.reverseRecOn with
  | nil => exact fun _ => ⟨rfl, rfl, by simp [run, init], rfl, hp⟩
  | append_singleton l t ih =>
    intro h
    rw [run_append]
    exact forever_step (ih fun hh => h (by simp [hh])) fun hh => h (by simp [hh])

end Broadcaster
end CostMapModel

import Verif.Spec.AnyBundle
import Verif.Lemmas.Load
import Verif.Lemmas.RoundedConversions
import Verif.Lemmas.Ieee
import Verif.Props.Load

/-!
# Lemmas about loading any file
-/

set_option linter.unusedSectionVars false

namespace CostMapModel
open CostMap

theorem lookup_eq_some {α : Type} {k : String} {v : α} : ∀ {es : List (String × α)},
    es.lookup k = some v ↔ ∃ before after, es = before ++ (k, v) :: after ∧ k ∉ before.map Prod.fst
  | [] => by simp
  | (k', v') :: es => by
    rw [List.lookup_cons]
    by_cases h : k = k'
    · subst h
      rw [beq_self_eq_true]
      constructor
      · intro hv; cases hv; exact ⟨[], es, rfl, by simp⟩
      · rintro ⟨b, a, e, hb⟩
        cases b with
        | nil => cases e; rfl
        | cons x b => cases e; simp at hb
    · rw [show (k == k') = false by simpa using h]
      simp only
      rw [lookup_eq_some]
      constructor
      · rintro ⟨b, a, e, hb⟩
        exact ⟨(k', v') :: b, a, by rw [e]; rfl, by simp only [List.map_cons, List.mem_cons, not_or]; exact ⟨h, hb⟩⟩
      · rintro ⟨b, a, e, hb⟩
        cases b with
        | nil => cases e; exact absurd rfl h
        | cons x b => cases e; exact ⟨b, a, rfl, by simp only [List.map_cons, List.mem_cons, not_or] at hb; exact hb.2⟩

theorem Res.bind_eq_ok {α β : Type} {r : Res α} {f : α → Res β} {b : β} : r.bind f = .ok b ↔ ∃ a, r = .ok a ∧ f a = .ok b := by
  cases r <;> simp [Res.bind]

namespace Yaml

theorem get_some {y v : Yaml} {k : String} : y.get k = .ok (some v) ↔ y.Field k v := by
  cases y with
  | map es =>
    simp only [get, Res.ok.injEq, lookup_eq_some, Field, Yaml.map.injEq]
  | _ => simp [get, Field]

theorem field_unique {y v v' : Yaml} {k : String} (h : y.Field k v) (h' : y.Field k v') : v = v' := by
  rw [← get_some] at h h'
  rw [h] at h'
  cases h'
  rfl

/-- What `get` returns. -/
theorem get_cases (y : Yaml) (k : String) :
    (∃ v, y.get k = .ok (some v) ∧ y.Field k v) ∨
    ((∀ v, ¬ y.Field k v) ∧ ((y.get k = .ok none ∧ ∀ s, y ≠ .scalar s) ∨ (y.get k = .thrown .runtimeError ∧ ∃ s, y = .scalar s))) := by
  cases y with
  | null => exact .inr ⟨by simp [Field], .inl ⟨rfl, by simp⟩⟩
  | seq l => exact .inr ⟨by simp [Field], .inl ⟨rfl, by simp⟩⟩
  | scalar s => exact .inr ⟨by simp [Field], .inr ⟨rfl, s, rfl⟩⟩
  | map es =>
    cases h : es.lookup k with
    | some v =>
      have : (Yaml.map es).get k = .ok (some v) := by simp [get, h]
      exact .inl ⟨v, this, get_some.1 this⟩
    | none =>
      have : (Yaml.map es).get k = .ok none := by simp [get, h]
      refine .inr ⟨fun v hv => ?_, .inl ⟨this, by simp⟩⟩
      rw [← get_some, this] at hv
      cases hv

theorem require_ok {y : Yaml} : ∀ {ks : List String}, y.require ks = .ok () ↔ ∀ k ∈ ks, ∃ v, y.Field k v
  | [] => by simp [require]
  | k :: ks => by
    rw [require, List.forall_mem_cons]
    rcases get_cases y k with ⟨v, h, hf⟩ | ⟨h, ⟨h', -⟩ | ⟨h', -⟩⟩
    · rw [h]
      simp only [Res.bind_ok, Option.isNone_some, Bool.false_eq_true, if_false]
      rw [require_ok]
      exact ⟨fun a => ⟨⟨v, hf⟩, a⟩, fun a => a.2⟩
    · rw [h']
      simp only [Res.bind_ok, Option.isNone_none, if_true]
      exact ⟨fun a => (nomatch a), fun a => absurd a.1.choose_spec (h _)⟩
    · rw [h']
      exact ⟨fun a => (nomatch a), fun a => absurd a.1.choose_spec (h _)⟩

/-- A missing key. -/
theorem require_missing {y : Yaml} (hy : ∀ s, y ≠ .scalar s) : ∀ {ks : List String}, (∃ k ∈ ks, ∀ v, ¬ y.Field k v) →
    y.require ks = .thrown .logicError
  | [], h => by simp at h
  | k :: ks, h => by
    rw [require]
    rcases get_cases y k with ⟨v, e, hf⟩ | ⟨h', ⟨e, -⟩ | ⟨-, s, e⟩⟩
    · rw [e]
      simp only [Res.bind_ok, Option.isNone_some, Bool.false_eq_true, if_false]
      refine require_missing hy ?_
      obtain ⟨k', hk', hn⟩ := h
      rcases List.mem_cons.1 hk' with rfl | hk'
      · exact absurd hf (hn v)
      · exact ⟨k', hk', hn⟩
    · rw [e]; rfl
    · exact absurd e (hy s)

end Yaml

namespace Reader
variable {K : Type} {rd : Reader K}

theorem text_ok {v : Yaml} {s : String} : rd.text (some v) = .ok s ↔ rd.IsText v s := by
  cases v with
  | scalar t => simp [text, IsText]
  | null =>
    cases h : rd.null <;> simp [text, IsText, h]
  | _ => simp [text, IsText]

theorem text_cases (v : Option Yaml) : (∃ s, rd.text v = .ok s) ∨ rd.text v = .thrown .runtimeError := by
  rcases v with _ | v
  · exact .inr rfl
  · cases v with
    | scalar t => exact .inl ⟨t, rfl⟩
    | null => cases h : rd.null <;> simp [text, h]
    | _ => exact .inr rfl

theorem number_ok {α : Type} {conv : String → Option α} {v : Yaml} {x : α} :
    number conv (some v) = .ok x ↔ ∃ s, v = .scalar s ∧ conv s = some x := by
  cases v with
  | scalar t => cases h : conv t <;> simp [number, h]
  | _ => simp [number]

theorem number_cases {α : Type} (conv : String → Option α) (v : Option Yaml) :
    (∃ x, number conv v = .ok x) ∨ number conv v = .thrown .runtimeError := by
  rcases v with _ | v
  · exact .inr rfl
  · cases v with
    | scalar t => cases h : conv t <;> simp [number, h]
    | _ => exact .inr rfl

theorem item_ok {y : Option Yaml} {p : String × String} : rd.item y = .ok p ↔ ∃ v, y = some v ∧ rd.IsLayer v p := by
  rcases y with _ | y
  · simp [item]
  simp only [item, Option.some.injEq, exists_eq_left']
  rcases Yaml.get_cases y "layer_name" with ⟨n, e, hf⟩ | ⟨h, ⟨e, -⟩ | ⟨e, -⟩⟩
  · rw [e]
    rcases Yaml.get_cases y "layer_data" with ⟨d, e', hf'⟩ | ⟨h, ⟨e', -⟩ | ⟨e', -⟩⟩
    · rw [e']
      simp only [Res.bind_ok, Option.isNone_some, Bool.false_eq_true, if_false]
      constructor
      · intro h
        obtain ⟨s, hs, h⟩ := Res.bind_eq_ok.1 h
        obtain ⟨t, ht, h⟩ := Res.bind_eq_ok.1 h
        cases h
        exact ⟨n, d, hf, text_ok.1 hs, hf', text_ok.1 ht⟩
      · rintro ⟨n', d', hn, tn, hd, td⟩
        cases Yaml.field_unique hf hn
        cases Yaml.field_unique hf' hd
        rw [text_ok.2 tn, text_ok.2 td]
        rfl
    · rw [e']
      simp only [Res.bind_ok, Option.isNone_some, Option.isNone_none, Bool.false_eq_true, if_false, if_true]
      exact ⟨fun a => (nomatch a), fun ⟨_, d, _, _, hd, _⟩ => absurd hd (h d)⟩
    · rw [e']
      simp only [Res.bind_ok, Option.isNone_some, Bool.false_eq_true, if_false]
      exact ⟨fun a => (nomatch a), fun ⟨_, d, _, _, hd, _⟩ => absurd hd (h d)⟩
  · rw [e]
    exact ⟨fun a => (nomatch a), fun ⟨n, _, hn, _⟩ => absurd hn (h n)⟩
  · rw [e]
    exact ⟨fun a => (nomatch a), fun ⟨n, _, hn, _⟩ => absurd hn (h n)⟩

theorem item_cases (y : Option Yaml) :
    (∃ p, rd.item y = .ok p) ∨ rd.item y = .thrown .logicError ∨ rd.item y = .thrown .runtimeError := by
  rcases y with _ | y
  · exact .inr (.inl rfl)
  simp only [item]
  rcases Yaml.get_cases y "layer_name" with ⟨n, e, hf⟩ | ⟨h, ⟨e, -⟩ | ⟨e, -⟩⟩ <;> rw [e] <;> try simp
  rcases Yaml.get_cases y "layer_data" with ⟨d, e', hf'⟩ | ⟨h, ⟨e', -⟩ | ⟨e', -⟩⟩ <;> rw [e'] <;> try simp
  rcases text_cases (rd := rd) (some n) with ⟨s, hs⟩ | hs <;> rw [hs] <;> try simp
  rcases text_cases (rd := rd) (some d) with ⟨t, ht⟩ | ht <;> rw [ht] <;> simp

/-- The loop succeeds when each entry names a layer; it inserts them in order. -/
theorem readItems_ok : ∀ {ys : List (Option Yaml)} {acc ps : List (String × String)},
    rd.readItems ys acc = .ok ps ↔ ∃ vs ls, ys = vs.map some ∧ List.Forall₂ rd.IsLayer vs ls ∧
      readLayers (ls.map fun p => ⟨some p.1, some p.2⟩) acc = .ok ps
  | [], acc, ps => by
    simp only [readItems]
    constructor
    · intro h; exact ⟨[], [], rfl, .nil, h⟩
    · rintro ⟨vs, ls, h1, h2, h3⟩
      cases vs with
      | nil => cases h2; exact h3
      | cons v vs => simp at h1
  | y :: ys, acc, ps => by
    simp only [readItems]
    rw [Res.bind_eq_ok]
    constructor
    · rintro ⟨p, hp, h⟩
      obtain ⟨v, rfl, hv⟩ := item_ok.1 hp
      obtain ⟨vs, ls, h1, h2, h3⟩ := readItems_ok.1 h
      exact ⟨v :: vs, p :: ls, by rw [h1]; rfl, .cons hv h2, h3⟩
    · rintro ⟨vs, ls, h1, h2, h3⟩
      cases h2 with
      | nil => simp at h1
      | cons hv h2 =>
        simp only [List.map_cons, List.cons.injEq] at h1
        exact ⟨_, item_ok.2 ⟨_, h1.1, hv⟩, readItems_ok.2 ⟨_, _, h1.2, h2, h3⟩⟩

theorem readItems_cases : ∀ (ys : List (Option Yaml)) (acc : List (String × String)),
    (∃ ps, rd.readItems ys acc = .ok ps) ∨ rd.readItems ys acc = .thrown .logicError ∨ rd.readItems ys acc = .thrown .runtimeError
  | [], acc => .inl ⟨acc, rfl⟩
  | y :: ys, acc => by
    simp only [readItems]
    rcases item_cases (rd := rd) y with ⟨p, h⟩ | h | h <;> rw [h]
    · exact readItems_cases ys _
    · exact .inr (.inl rfl)
    · exact .inr (.inr rfl)

theorem items_ok {y : Yaml} {vs : List Yaml} : rd.items (some y) = vs.map some ↔ rd.IsList y vs := by
  cases y with
  | null => cases vs <;> simp [items, IsList]
  | scalar s => cases vs <;> simp [items, IsList]
  | seq l =>
    simp only [items, IsList]
    constructor
    · intro h; exact ((List.map_injective_iff.2 (Option.some_injective _)) h).symm
    · intro h; rw [h]
  | map es =>
    simp only [items, IsList]
    have key : ∀ (i : Nat) (v : Yaml), (es.find? fun e => rd.uint e.1 == some i).map Prod.snd = some v ↔
        ∃ before k after, es = before ++ (k, v) :: after ∧ rd.uint k = some i ∧ ∀ e ∈ before, rd.uint e.1 ≠ some i := by
      intro i v
      rw [Option.map_eq_some_iff]
      constructor
      · rintro ⟨⟨k, v'⟩, h, rfl⟩
        obtain ⟨h1, b, a, h2, h3⟩ := List.find?_eq_some_iff_append.1 h
        exact ⟨b, k, a, h2, by simpa using h1, fun e he => by simpa using h3 e he⟩
      · rintro ⟨b, k, a, h1, h2, h3⟩
        exact ⟨(k, v), List.find?_eq_some_iff_append.2 ⟨by simpa using h2, b, a, h1, fun e he => by simpa using h3 e he⟩, rfl⟩
    constructor
    · intro h
      have hl : vs.length = es.length := by
        have := congrArg List.length h
        simpa using this.symm
      refine ⟨hl, fun i hi => ?_⟩
      rw [← key]
      have := congrArg (fun l => l[i]?) h
      simp only [List.getElem?_map, List.getElem?_range (hl ▸ hi), Option.map_some, List.getElem?_eq_getElem hi, Option.some.injEq] at this
      exact this
    · rintro ⟨hl, h⟩
      apply List.ext_getElem
      · simp [hl]
      · intro i h1 h2
        simp only [List.length_map, List.length_range] at h1
        simp only [List.getElem_map, List.getElem_range]
        exact (key i _).2 (h i (by omega))

theorem items_none : rd.items none = [] := rfl

/-- Reading once the six keys are read. -/
theorem readTree_keys {y : Yaml} {d : Description K} (h : rd.SaysKeys y d) :
    rd.readTree y = (y.get "layers").bind fun ls => (rd.readItems (rd.items ls) []).bind fun layers =>
      .ok ⟨d.frame, d.centre, d.resolution, d.cellsX, d.cellsY, layers⟩ := by
  obtain ⟨⟨v1, f1, c1⟩, ⟨s5, f5, c5⟩, ⟨s6, f6, c6⟩, ⟨s2, f2, c2⟩, ⟨s3, f3, c3⟩, ⟨s4, f4, c4⟩⟩ := h
  unfold readTree
  have hreq : y.require ["frame_id", "centre_x", "centre_y", "resolution", "number_of_cells_x", "number_of_cells_y"] = .ok () := by
    rw [Yaml.require_ok]
    intro k hk
    simp only [List.mem_cons, List.not_mem_nil, or_false] at hk
    rcases hk with rfl | rfl | rfl | rfl | rfl | rfl
    exacts [⟨_, f1⟩, ⟨_, f5⟩, ⟨_, f6⟩, ⟨_, f2⟩, ⟨_, f3⟩, ⟨_, f4⟩]
  rw [hreq, Yaml.get_some.2 f1, Yaml.get_some.2 f2, Yaml.get_some.2 f3, Yaml.get_some.2 f4, Yaml.get_some.2 f5, Yaml.get_some.2 f6]
  simp only [Res.bind_ok]
  rw [text_ok.2 c1, number_ok.2 ⟨s2, rfl, c2⟩, number_ok.2 ⟨s3, rfl, c3⟩, number_ok.2 ⟨s4, rfl, c4⟩, number_ok.2 ⟨s5, rfl, c5⟩,
    number_ok.2 ⟨s6, rfl, c6⟩]
  simp only [Res.bind_ok]

/-- The metadata is read when the tree says something; the layers are what the loop makes of the entries. -/
theorem readTree_ok {y : Yaml} {b : BundleInfo (Dbl K)} : rd.readTree y = .ok b ↔
    ∃ ls, rd.Says y ⟨b.frameId, b.centre, b.resolution, b.cellsX, b.cellsY, ls⟩ ∧
      readLayers (ls.map fun p => ⟨some p.1, some p.2⟩) [] = .ok b.layers := by
  constructor
  · intro h
    unfold readTree at h
    obtain ⟨_, hreq, h⟩ := Res.bind_eq_ok.1 h
    have hk := Yaml.require_ok.1 hreq
    have get : ∀ k ∈ bundleKeys, ∃ v, y.get k = .ok (some v) ∧ y.Field k v := fun k hm => by
      obtain ⟨v, hv⟩ := hk k hm
      exact ⟨v, Yaml.get_some.2 hv, hv⟩
    obtain ⟨v1, e1, f1⟩ := get "frame_id" (by simp [bundleKeys])
    obtain ⟨v2, e2, f2⟩ := get "resolution" (by simp [bundleKeys])
    obtain ⟨v3, e3, f3⟩ := get "number_of_cells_x" (by simp [bundleKeys])
    obtain ⟨v4, e4, f4⟩ := get "number_of_cells_y" (by simp [bundleKeys])
    obtain ⟨v5, e5, f5⟩ := get "centre_x" (by simp [bundleKeys])
    obtain ⟨v6, e6, f6⟩ := get "centre_y" (by simp [bundleKeys])
    rw [e1, e2, e3, e4, e5, e6] at h
    simp only [Res.bind_ok] at h
    obtain ⟨fr, t1, h⟩ := Res.bind_eq_ok.1 h
    obtain ⟨r, t2, h⟩ := Res.bind_eq_ok.1 h
    obtain ⟨nx, t3, h⟩ := Res.bind_eq_ok.1 h
    obtain ⟨ny, t4, h⟩ := Res.bind_eq_ok.1 h
    obtain ⟨cx, t5, h⟩ := Res.bind_eq_ok.1 h
    obtain ⟨cy, t6, h⟩ := Res.bind_eq_ok.1 h
    obtain ⟨l, t7, h⟩ := Res.bind_eq_ok.1 h
    obtain ⟨ps, t8, h⟩ := Res.bind_eq_ok.1 h
    cases h
    obtain ⟨s2, rfl, c2⟩ := number_ok.1 t2
    obtain ⟨s3, rfl, c3⟩ := number_ok.1 t3
    obtain ⟨s4, rfl, c4⟩ := number_ok.1 t4
    obtain ⟨s5, rfl, c5⟩ := number_ok.1 t5
    obtain ⟨s6, rfl, c6⟩ := number_ok.1 t6
    obtain ⟨vs, ls, q1, q2, q3⟩ := readItems_ok.1 t8
    refine ⟨ls, ⟨⟨⟨v1, f1, text_ok.1 t1⟩, ⟨s5, f5, c5⟩, ⟨s6, f6, c6⟩, ⟨s2, f2, c2⟩, ⟨s3, f3, c3⟩, ⟨s4, f4, c4⟩⟩, ?_⟩, q3⟩
    rcases Yaml.get_cases y "layers" with ⟨v, e, hf⟩ | ⟨hn, ⟨e, -⟩ | ⟨e, -⟩⟩
    · rw [e] at t7
      cases t7
      exact .inr ⟨v, vs, hf, items_ok.1 q1, q2⟩
    · rw [e] at t7
      cases t7
      rw [items_none] at q1
      cases vs with
      | nil => cases q2; exact .inl ⟨hn, rfl⟩
      | cons => simp at q1
    · rw [e] at t7
      cases t7
  · rintro ⟨ls, ⟨hk, hl⟩, q⟩
    rw [readTree_keys hk]
    obtain ⟨⟨v1, f1, c1⟩, -⟩ := hk
    have : ∃ l, y.get "layers" = .ok l ∧ rd.readItems (rd.items l) [] = .ok b.layers := by
      rcases hl with ⟨hn, hl⟩ | ⟨v, vs, hf, hv, h2⟩
      · rcases Yaml.get_cases y "layers" with ⟨v, e, hf⟩ | ⟨-, ⟨e, -⟩ | ⟨-, s, rfl⟩⟩
        · exact absurd hf (hn v)
        · refine ⟨none, e, ?_⟩
          simp only at hl
          rw [hl] at q
          exact q
        · obtain ⟨_, _, hx, _⟩ := f1
          cases hx
      · exact ⟨some v, Yaml.get_some.2 hf, readItems_ok.2 ⟨vs, ls, items_ok.2 hv, h2, q⟩⟩
    obtain ⟨l, e1, e2⟩ := this
    rw [e1, Res.bind_ok, e2]
    rfl

theorem readTree_cases (y : Yaml) :
    (∃ b, rd.readTree y = .ok b) ∨ rd.readTree y = .thrown .logicError ∨ rd.readTree y = .thrown .runtimeError := by
  have step : ∀ {α β : Type} {r : Res α} {f : α → Res β},
      ((∃ a, r = .ok a) ∨ r = .thrown .logicError ∨ r = .thrown .runtimeError) →
      (∀ a, (∃ b, f a = .ok b) ∨ f a = .thrown .logicError ∨ f a = .thrown .runtimeError) →
      (∃ b, r.bind f = .ok b) ∨ r.bind f = .thrown .logicError ∨ r.bind f = .thrown .runtimeError := by
    rintro α β r f (⟨a, rfl⟩ | rfl | rfl) hf
    · exact hf a
    · exact .inr (.inl rfl)
    · exact .inr (.inr rfl)
  have hg : ∀ k, (∃ a, y.get k = .ok a) ∨ y.get k = .thrown .logicError ∨ y.get k = .thrown .runtimeError := by
    intro k
    rcases Yaml.get_cases y k with ⟨v, e, -⟩ | ⟨-, ⟨e, -⟩ | ⟨e, -⟩⟩
    exacts [.inl ⟨_, e⟩, .inl ⟨_, e⟩, .inr (.inr e)]
  have hr : ∀ ks, (∃ a, y.require ks = .ok a) ∨ y.require ks = .thrown .logicError ∨ y.require ks = .thrown .runtimeError := by
    intro ks
    induction ks with
    | nil => exact .inl ⟨(), rfl⟩
    | cons k ks ih =>
      rw [Yaml.require]
      refine step (hg k) fun v => ?_
      split
      · exact .inr (.inl rfl)
      · exact ih
  have ht : ∀ v, (∃ a, rd.text v = .ok a) ∨ rd.text v = .thrown .logicError ∨ rd.text v = .thrown .runtimeError :=
    fun v => (text_cases v).imp_right .inr
  have hn : ∀ {α : Type} (c : String → Option α) v, (∃ a, number c v = .ok a) ∨ number c v = .thrown .logicError ∨
      number c v = .thrown .runtimeError := fun c v => (number_cases c v).imp_right .inr
  unfold readTree
  exact step (hr _) fun _ => step (hg _) fun v => step (ht v) fun _ => step (hg _) fun v => step (hn _ v) fun _ =>
    step (hg _) fun v => step (hn _ v) fun _ => step (hg _) fun v => step (hn _ v) fun _ => step (hg _) fun v => step (hn _ v) fun _ =>
    step (hg _) fun v => step (hn _ v) fun _ => step (hg _) fun v => step (readItems_cases _ _) fun _ => .inl ⟨_, rfl⟩

end Reader

/-! ## The loop over the layers does not look at coordinates -/

/-- `a'` does on `g s` what `a` does on `s`. -/
def Act.Same {σ τ α : Type} (g : σ → τ) (a : Act σ α) (a' : Act τ α) : Prop := ∀ s, a' (g s) = ((a s).1, g (a s).2)

namespace Act.Same
variable {σ τ α β : Type} {g : σ → τ}

theorem pure (x : α) : Act.Same g (Act.pure x) (Act.pure x) := fun _ => rfl

theorem lift (r : Res α) : Act.Same g (Act.lift r) (Act.lift r) := fun _ => rfl

theorem bind {a : Act σ α} {a' : Act τ α} {f : α → Act σ β} {f' : α → Act τ β} (ha : Act.Same g a a')
    (hf : ∀ x, Act.Same g (f x) (f' x)) : Act.Same g (Act.bind a f) (Act.bind a' f') := fun s => by
  unfold Act.bind
  rw [ha s]
  rcases e : a s with ⟨r, s'⟩
  cases r with
  | ok x => exact hf x s'
  | _ => rfl

theorem ite {c : Prop} [Decidable c] {a b : Act σ α} {a' b' : Act τ α} (ha : Act.Same g a a') (hb : Act.Same g b b') :
    Act.Same g (if c then a else b) (if c then a' else b') := by split <;> assumption

theorem forEach {f : α → Act σ Unit} {f' : α → Act τ Unit} (hf : ∀ x, Act.Same g (f x) (f' x)) :
    ∀ xs : List α, Act.Same g (Act.forEach f xs) (Act.forEach f' xs)
  | [] => pure ()
  | x :: xs => by
    unfold Act.forEach
    exact bind (hf x) fun _ => forEach hf xs

theorem forIter {ι : Type} {I : IterOps ι α} {f : α → Act σ Unit} {f' : α → Act τ Unit} (hf : ∀ x, Act.Same g (f x) (f' x)) :
    ∀ (n : Nat) (it : ι), Act.Same g (Act.forIter I f n it) (Act.forIter I f' n it)
  | 0, _ => fun _ => rfl
  | n + 1, it => by
    unfold Act.forIter
    exact ite (pure ()) (bind (lift _) fun x => bind (hf x) fun _ => bind (lift _) fun it' => forIter hf n it')

end Act.Same

namespace CostMap
variable {K K' : Type}

/-- The map with other coordinates, perhaps of another type. -/
def withCoords (L : Vec K') (r : K') (p : Vec K') (m : CostMap K) : CostMap K' where
  frameId := m.frameId
  timestamp := m.timestamp
  data := m.data
  layers := m.layers
  basicLayers := m.basicLayers
  length := L
  resolution := r
  position := p
  size := m.size
  startIndex := m.startIndex

variable (L : Vec K') (r : K') (p : Vec K')

theorem same_add (l : String) (a : Mat Cost) : Act.Same (withCoords L r p) (add (K := K) l a) (add (K := K') l a) := fun m => by
  unfold add
  show (if m.size.x ≠ a.rows then _ else if m.size.y ≠ a.cols then _ else if m.exists l = true then _ else _) = _
  split
  · rfl
  · split
    · rfl
    · split <;> rfl

theorem same_setAt (l : String) (i : Idx) (v : Cost) :
    Act.Same (withCoords L r p) (setAt (K := K) l i v) (setAt (K := K') l i v) := fun m => by
  unfold setAt
  show (match m.data l with
    | none => _
    | some a => _) = _
  rcases m.data l with _ | a
  · rfl
  · dsimp only
    split <;> rfl

theorem same_loadLayer (cv : Cv) (files : Files K) (files' : Files K') (hf : files'.images = files.images) (q : String × String) :
    Act.Same (withCoords L r p) (loadLayer cv files q) (loadLayer cv files' q) := by
  unfold loadLayer
  rw [hf]
  refine Act.Same.bind ?_ fun _ => Act.Same.pure ()
  generalize FileImage.toImage (files.images q.2) = img
  unfold addLayerFromImage
  refine Act.Same.ite (Act.Same.pure _) (Act.Same.bind ?_ fun _ => ?_)
  · intro m
    exact same_add L r p _ _ m
  · intro m
    have hb : Act.Same (withCoords L r p) (Act.bind (forCells (imageCell cv img q.1)) fun _ => Act.pure (σ := CostMap K) true)
        (Act.bind (forCells (imageCell cv img q.1)) fun _ => Act.pure (σ := CostMap K') true) := by
      refine Act.Same.bind (fun m => ?_) fun _ => Act.Same.pure true
      refine Act.Same.forIter (fun i => ?_) _ _ m
      unfold imageCell
      refine (Act.Same.lift _).bind fun s => ?_
      split
      · exact Act.Same.pure ()
      · exact (Act.Same.lift _).bind fun v => same_setAt L r p _ _ v
    by_cases hc : m.size.x ≠ (img.height : Int) ∨ m.size.y ≠ (img.width : Int)
    · have hc' : (withCoords L r p m).size.x ≠ (img.height : Int) ∨ (withCoords L r p m).size.y ≠ (img.width : Int) := hc
      simp only [if_pos hc, if_pos hc']
    · have hc' : ¬((withCoords L r p m).size.x ≠ (img.height : Int) ∨ (withCoords L r p m).size.y ≠ (img.width : Int)) := hc
      simp only [if_neg hc, if_neg hc']
      exact hb m

end CostMap

/-- `loadLayers_any` whatever the coordinates are. -/
theorem loadLayers_coords {K : Type} (cv : Cv) (files : Files K) {ps : List (String × String)} {m : CostMap K} (hx : 0 < m.size.x)
    (hy : 0 < m.size.y) (h0 : m.startIndex.In m.size) (hc : m.Coherent) (hn : (ps.map Prod.fst).Nodup) :
    ∃ m', Act.forEach (loadLayer cv files) ps m = (.ok (), m') ∧ m'.Coherent ∧ SameGeometry m m' ∧ SameMeta m m' ∧
      m'.layers = m.layers ++ (ps.map Prod.fst).filter (fun l => decide (l ∉ m.layers)) ∧
      (∀ l i, l ∉ ps.map Prod.fst → m'.at l i = m.at l i) ∧
      ∀ p ∈ ps, ∀ i, i.In m.size → m'.at p.1 i = .ok (loadedCost cv (files.images p.2) m.size i) := by
  let q : CostMap ℚ := withCoords ⟨(m.size.x : ℚ) * 1, (m.size.y : ℚ) * 1⟩ 1 ⟨0, 0⟩ m
  have hg : q.Geo := ⟨one_pos, hx, hy, rfl, rfl, h0⟩
  have hq : q.Coherent := ⟨hc.nodup, hc.mem_iff, hc.dims⟩
  obtain ⟨q', e, c, sg, sm, ly, ot, vals⟩ := loadLayers_any cv (⟨.missing, files.images⟩ : Files ℚ) hg hq hn
  have same := Act.Same.forEach (same_loadLayer (K := ℚ) m.length m.resolution m.position cv ⟨.missing, files.images⟩ files rfl) ps q
  rw [e] at same
  have at_eq : ∀ l i, (withCoords m.length m.resolution m.position q').at l i = q'.at l i := fun _ _ => rfl
  exact ⟨withCoords m.length m.resolution m.position q', same, ⟨c.nodup, c.mem_iff, c.dims⟩, ⟨rfl, rfl, rfl, sg.size, sg.startIndex⟩,
    ⟨sm.frameId, sm.timestamp, sm.basicLayers⟩, ly, fun l i hl => ot l i hl, fun p hp i hi => vals p hp i hi⟩


section
variable {K : Type} [Field K] [LinearOrder K] [IsStrictOrderedRing K] [FloorRing K] {F Ff : Fmt K}

/-! ## The geometry -/

theorem Dbl.round_pos (hf : Ff.Single) {x : K} (hx : 0 < x) : Dbl.round Ff x = .pinf ∨ Dbl.round Ff x = .fin (Ff.rd x) := by
  have ht : 0 < Ff.top := lt_of_lt_of_le (by positivity) hf.top
  have := Close24.pos hf.rd hx
  rcases Dbl.round_cases Ff x with ⟨-, e⟩ | ⟨h, -, e⟩ | ⟨-, e⟩
  · exact .inl e
  · linarith
  · exact .inr e

theorem Dbl.lt_round (hf : Ff.Single) {x : K} (hx : 0 < x) : Dbl.lt (.fin 0) (Dbl.round Ff x) = true := by
  rcases Dbl.round_pos hf hx with e | e
  · rw [e]; rfl
  · rw [e]; simpa [Dbl.lt] using Close24.pos hf.rd hx

/-- The length of a positive number of cells. -/
theorem fileLength (hf : Ff.Single) {res : Dbl K} (hr : Dbl.lt (.fin 0) res = true) {n : Nat} (hn : 0 < n) :
    Dbl.mul Ff res (.round Ff (n : K)) = .pinf ∨
    ∃ r, res = .fin r ∧ 0 < r ∧ Dbl.mul Ff res (.round Ff (n : K)) = .fin (Ff.rd (r * Ff.rd n)) := by
  have n0 : (0 : K) < n := by exact_mod_cast hn
  have f0 := Close24.pos hf.rd n0
  cases res with
  | fin r =>
    have r0 : 0 < r := by simpa [Dbl.lt] using hr
    rcases Dbl.round_pos hf n0 with e | e
    · left; rw [e]; simp [Dbl.mul, Dbl.infOf, r0.ne', r0]
    · rw [e]
      simp only [Dbl.mul]
      rcases Dbl.round_pos hf (mul_pos r0 f0) with e | e
      · exact .inl e
      · exact .inr ⟨r, rfl, r0, e⟩
  | pinf =>
    left
    rcases Dbl.round_pos hf n0 with e | e
    · rw [e]; rfl
    · rw [e]; simp [Dbl.mul, Dbl.infOf, f0.ne', f0]
  | ninf => simp [Dbl.lt] at hr
  | nan => simp [Dbl.lt] at hr

/-- The number of cells `setGeometry` finds for a positive number of cells in the file, if it finds one. -/
theorem cells_pos (hF : F.Double) (hf : Ff.Single) {res : Dbl K} (hr : Dbl.lt (.fin 0) res = true) {n : Nat} (hn : 0 < n) {x : Int}
    (h : Dbl.roundToInt (.div F (.mul Ff res (.round Ff (n : K))) res) = some x) :
    0 < x ∧ ∃ r, res = .fin r ∧ x = roundHalfAway (F.rd (Ff.rd (r * Ff.rd n) / r)) := by
  rcases fileLength hf hr hn with e | ⟨r, rfl, r0, e⟩
  · rw [e] at h
    exfalso
    cases res with
    | fin r => simp only [Dbl.div] at h; split at h <;> simp [Dbl.roundToInt] at h
    | _ => simp [Dbl.div, Dbl.roundToInt] at h
  have n1 : (1 : K) ≤ n := by exact_mod_cast hn
  have c1 := (abs_le.1 (hf.rd n (by linarith))).1
  have f2 : (9 : K) / 10 ≤ Ff.rd n := by
    have : (n : K) / 2 ^ 24 ≤ n / 10 := by
      apply div_le_div_of_nonneg_left (by linarith) (by norm_num) (by norm_num)
    linarith
  have hp : 0 < r * Ff.rd n := mul_pos r0 (by linarith)
  have c2 := (abs_le.1 (hf.rd _ hp)).1
  rw [e, Dbl.div_fin r0.ne', roundToInt_round hF] at h
  refine ⟨?_, r, rfl, i32_some h⟩
  rw [i32_some h]
  have q : (8 : K) / 10 ≤ Ff.rd (r * Ff.rd n) / r := by
    rw [le_div_iff₀ r0]
    have : r * Ff.rd n / 2 ^ 24 ≤ r * Ff.rd n / 20 := by
      apply div_le_div_of_nonneg_left hp.le (by norm_num) (by norm_num)
    have : r * (9 / 10) ≤ r * Ff.rd n := mul_le_mul_of_nonneg_left f2 r0.le
    linarith
  have d := (abs_le.1 (hF.rd_near (Ff.rd (r * Ff.rd n) / r))).1
  rw [abs_of_nonneg (by linarith)] at d
  have : (1 : K) / 2 ≤ F.rd (Ff.rd (r * Ff.rd n) / r) := by linarith
  unfold roundHalfAway
  rw [if_pos (by linarith)]
  exact Int.lt_iff_add_one_le.2 (Int.le_floor.2 (by push_cast; linarith))

/-- What a successful `setGeometry` leaves when it finds a positive number of cells. -/
theorem setGeometryD_ok {len : Vec (Dbl K)} {res : Dbl K} {pos : Vec (Dbl K)} {e : CostMap (Dbl K)} (he : e.Coherent) {x y : Int}
    (hx : Dbl.lt (.fin 0) len.x = true) (hy : Dbl.lt (.fin 0) len.y = true) (hr : Dbl.lt (.fin 0) res = true)
    (ex : Dbl.roundToInt (.div F len.x res) = some x) (ey : Dbl.roundToInt (.div F len.y res) = some y) (x0 : 0 < x) (y0 : 0 < y) :
    ∃ m, setGeometryD F len res pos e = (.ok (), m) ∧ m.Coherent ∧ m.size = ⟨x, y⟩ ∧ m.startIndex = 0 ∧ m.position = pos ∧
      m.resolution = res ∧ m.length = ⟨.mul F (.ofInt x) res, .mul F (.ofInt y) res⟩ ∧ m.layers = e.layers ∧
      m.basicLayers = e.basicLayers ∧ ∀ l ∈ e.layers, ∀ i, i.In m.size → m.at l i = .ok NO_INFORMATION := by
  unfold setGeometryD
  rw [if_neg (by simp [hx]), if_neg (by simp [hy]), if_neg (by simp [hr]), ex, ey]
  refine ⟨_, rfl, ⟨he.nodup, fun l => ?_, fun l a ha => ?_⟩, rfl, rfl, rfl, rfl, rfl, rfl, rfl, fun l hl i hi => ?_⟩
  · simp only [resize, clearAll, Option.map_map]
    rw [Option.isSome_map]; exact he.mem_iff l
  · simp only [resize, clearAll, Option.map_map] at ha ⊢
    obtain ⟨b, -, rfl⟩ := Option.map_eq_some_iff.mp ha
    simp only [Function.comp, Mat.rows_setConstant, Mat.cols_setConstant, Mat.rows_const, Mat.cols_const]
    omega
  · obtain ⟨a, ha⟩ := Option.isSome_iff_exists.1 ((he.mem_iff l).1 hl)
    obtain ⟨i1, i2, i3, i4⟩ := hi
    simp only [resize, clearAll] at i2 i4
    unfold CostMap.at
    simp only [resize, clearAll, ha, Option.map_some]
    rw [Mat.get?_setConstant, Mat.get?_const, if_pos (by omega)]
    rfl

/-- `setGeometry` on what is in a file aborts when the resolution is not positive or a number of cells is 0. -/
theorem fileGeometry_abort (hf : Ff.Single) {res : Dbl K} {nx ny : Nat} (h : Dbl.lt (.fin 0) res = false ∨ nx = 0 ∨ ny = 0)
    (pos : Vec (Dbl K)) (e : CostMap (Dbl K)) :
    setGeometryD F ⟨.mul Ff res (.round Ff (nx : K)), .mul Ff res (.round Ff (ny : K))⟩ res pos e = (.assertFail, e) := by
  have zero : Dbl.lt (.fin 0) (Dbl.mul Ff res (.round Ff ((0 : Nat) : K))) = false := by
    have ht : 0 < Ff.top := lt_of_lt_of_le (by positivity) hf.top
    have e0 : Dbl.round Ff (0 : K) = .fin 0 := by
      rw [Dbl.round_fin (by rw [hf.zero, abs_zero]; exact ht), hf.zero]
    rw [Nat.cast_zero, e0]
    cases res with
    | fin r => simp only [Dbl.mul]; rw [mul_zero, e0]; simp [Dbl.lt]
    | pinf => simp [Dbl.mul, Dbl.infOf, Dbl.lt]
    | ninf => simp [Dbl.mul, Dbl.infOf, Dbl.lt, Dbl.neg]
    | nan => simp [Dbl.mul, Dbl.lt]
  unfold setGeometryD
  split
  · rfl
  · rename_i h1
    split
    · rfl
    · rename_i h2
      rcases h with h | rfl | rfl
      · rw [if_pos (by simp [h])]
      · exact absurd zero (by simpa using h1)
      · exact absurd zero (by simpa using h2)

/-- Otherwise it finds a positive number of cells, or has undefined behaviour. -/
theorem fileGeometry_cases (hF : F.Double) (hf : Ff.Single) {res : Dbl K} (hr : Dbl.lt (.fin 0) res = true) {nx ny : Nat} (hx : 0 < nx)
    (hy : 0 < ny) (pos : Vec (Dbl K)) {e : CostMap (Dbl K)} (he : e.Coherent) :
    setGeometryD F ⟨.mul Ff res (.round Ff (nx : K)), .mul Ff res (.round Ff (ny : K))⟩ res pos e = (.ub, e) ∨
    ∃ m r, setGeometryD F ⟨.mul Ff res (.round Ff (nx : K)), .mul Ff res (.round Ff (ny : K))⟩ res pos e = (.ok (), m) ∧
      m.Coherent ∧ 0 < m.size.x ∧ 0 < m.size.y ∧ res = .fin r ∧
      m.size = ⟨roundHalfAway (F.rd (Ff.rd (r * Ff.rd nx) / r)), roundHalfAway (F.rd (Ff.rd (r * Ff.rd ny) / r))⟩ ∧
      m.startIndex = 0 ∧ m.position = pos ∧ m.resolution = res ∧
      m.length = ⟨.mul F (.ofInt m.size.x) res, .mul F (.ofInt m.size.y) res⟩ ∧ m.layers = e.layers ∧ m.basicLayers = e.basicLayers ∧
      ∀ l ∈ e.layers, ∀ i, i.In m.size → m.at l i = .ok NO_INFORMATION := by
  have lt_len : ∀ n : Nat, 0 < n → Dbl.lt (.fin 0) (.mul Ff res (.round Ff (n : K))) = true := by
    intro n hn
    have n0 : (0 : K) < n := by exact_mod_cast hn
    rcases fileLength hf hr hn with h | ⟨r, -, r0, h⟩
    · rw [h]; rfl
    · rw [h]; simpa [Dbl.lt] using Close24.pos hf.rd (mul_pos r0 (Close24.pos hf.rd n0))
  rcases ex : Dbl.roundToInt (.div F (.mul Ff res (.round Ff (nx : K))) res) with _ | x
  · left
    unfold setGeometryD
    rw [if_neg (by simp [lt_len nx hx]), if_neg (by simp [lt_len ny hy]), if_neg (by simp [hr]), ex]
  rcases ey : Dbl.roundToInt (.div F (.mul Ff res (.round Ff (ny : K))) res) with _ | y
  · left
    unfold setGeometryD
    rw [if_neg (by simp [lt_len nx hx]), if_neg (by simp [lt_len ny hy]), if_neg (by simp [hr]), ex, ey]
  right
  obtain ⟨x0, r, e1, x1⟩ := cells_pos hF hf hr hx ex
  obtain ⟨y0, r', e2, y1⟩ := cells_pos hF hf hr hy ey
  rw [e1] at e2
  cases e2
  obtain ⟨m, h1, h2, h3, h4, h5, h6, h7, h8, h9, h10⟩ := setGeometryD_ok (pos := pos)
    (len := ⟨.mul Ff res (.round Ff (nx : K)), .mul Ff res (.round Ff (ny : K))⟩) he (lt_len nx hx) (lt_len ny hy) hr ex ey x0 y0
  refine ⟨m, r, h1, h2, ?_, ?_, e1, ?_, h4, h5, h6, ?_, h8, h9, h10⟩
  · rw [h3]; exact x0
  · rw [h3]; exact y0
  · rw [h3, x1, y1]
  · rw [h7, h3]

/-- Loading once the geometry is set. -/
theorem loadBundle_run {rd : Reader K} {cv : Cv} {files : AnyFiles} {b : BundleInfo (Dbl K)} {ls : List (String × String)}
    (hb : rd.readDoc files.yaml = .ok b) (hl : readLayers (ls.map fun p => ⟨some p.1, some p.2⟩) [] = .ok b.layers)
    {e m : CostMap (Dbl K)}
    (hm : setGeometryD F ⟨.mul Ff b.resolution (.round Ff (b.cellsX : K)), .mul Ff b.resolution (.round Ff (b.cellsY : K))⟩
      b.resolution b.centre e = (.ok (), m))
    (hc : m.Coherent) (hx : 0 < m.size.x) (hy : 0 < m.size.y) (h0 : m.startIndex = 0) (hp : m.position = b.centre)
    (hr : m.resolution = b.resolution) (hly : m.layers = e.layers) (hbl : m.basicLayers = e.basicLayers)
    (hun : ∀ l ∈ e.layers, ∀ i, i.In m.size → m.at l i = .ok NO_INFORMATION) :
    ∃ m', loadBundle F Ff rd cv files e = (.ok (), m') ∧ m'.size = m.size ∧ m'.length = m.length ∧
      Loaded cv (fun n => (files.images n).map (·.as8 cv)) ⟨b.frameId, b.centre, b.resolution, b.cellsX, b.cellsY, ls⟩ e m' := by
  obtain ⟨ps, p1, p2, p3⟩ := readLayers_any ls (acc := []) List.Pairwise.nil
  rw [hl] at p1
  cases p1
  simp only [List.not_mem_nil, List.map_nil, not_false_eq_true, true_and, false_or] at p3
  have hnd : (b.layers.map Prod.fst).Nodup := (List.pairwise_map.2 p2).imp fun h => ne_of_lt h
  have mem : ∀ l, l ∈ b.layers.map Prod.fst ↔ l ∈ ls.map Prod.fst := by
    intro l
    constructor
    · intro h
      obtain ⟨⟨l', f⟩, hp, rfl⟩ := List.mem_map.1 h
      have hlk := (p3 _ _).1 hp
      simp only
      obtain ⟨as, bs, hab, -⟩ := List.lookup_eq_some_iff.1 hlk
      exact List.mem_map.2 ⟨(l', f), by rw [hab]; simp, rfl⟩
    · intro h
      cases hlk : ls.lookup l with
      | none =>
        obtain ⟨p, hp, rfl⟩ := List.mem_map.1 h
        have := List.lookup_eq_none_iff.1 hlk p hp
        simp at this
      | some f => exact List.mem_map.2 ⟨(l, f), (p3 l f).2 hlk, rfl⟩
  let M : CostMap (Dbl K) := (m.setFrameId b.frameId).resetTimestamp
  have cM : M.Coherent := ⟨hc.nodup, hc.mem_iff, hc.dims⟩
  have sM : M.startIndex.In M.size := by
    show m.startIndex.In m.size
    rw [h0]
    exact ⟨le_refl _, hx, le_refl _, hy⟩
  obtain ⟨m', r1, r2, r3, r4, r5, r6, r7⟩ := loadLayers_coords cv (files.as8 cv) (m := M) hx hy sM cM hnd
  have sz : m'.size = m.size := r3.size
  have lyM : M.layers = e.layers := hly
  refine ⟨m', ?_, sz, r3.length, r2, r4.frameId, r4.timestamp, r3.position.trans hp, r3.resolution.trans hr, by rw [sz]; exact hx,
    by rw [sz]; exact hy, r3.startIndex.trans h0, r4.basicLayers.trans hbl, fun l => ?_, fun l hl' hn i hi => ?_, fun l f hlf => ⟨?_, ?_⟩⟩
  · unfold loadBundle
    rw [Act.bind_ok (show Act.lift (rd.readDoc files.yaml) e = (.ok b, e) by rw [hb]; rfl), Act.bind_ok hm]
    exact r1
  · rw [r5, List.mem_append, List.mem_filter, mem, lyM]
    by_cases hl' : l ∈ e.layers <;> simp [hl']
  · rw [r6 l i fun h => hn ((mem l).1 h)]
    exact hun l hl' i (by rwa [sz] at hi)
  · intro img himg hh hw i hi
    have := r7 (l, f) ((p3 l f).2 hlf) i (by rwa [sz] at hi)
    have e1 : (files.as8 cv : Files (Dbl K)).images f = some img := himg
    rw [sz] at hh hw
    rw [e1, loadedCost, if_pos ⟨hh.symm, hw.symm⟩] at this
    have hsome : ((FileImage.toImage (some img)).costAt cv i).isSome := by
      rw [sz] at hi
      obtain ⟨i1, i2, i3, i4⟩ := hi
      cases img <;>
      · simp only [FileImage.toImage, Image.costAt, Option.isSome_map, Image.height, Image.width] at hh hw ⊢
        rw [Mat.get?_isSome_iff]
        exact ⟨i1, by omega, i3, by omega⟩
    obtain ⟨c, hc⟩ := Option.isSome_iff_exists.1 hsome
    refine ⟨c, hc, ?_⟩
    rw [this, hc]; rfl
  · intro hbad i hi
    have := r7 (l, f) ((p3 l f).2 hlf) i (by rwa [sz] at hi)
    rw [sz] at hbad
    rw [this, loadedCost]
    rcases himg : (files.as8 cv : Files (Dbl K)).images f with _ | img
    · rw [if_neg]
      simp only [FileImage.toImage, Image.height, Mat.empty]
      intro h
      exact absurd h.1 (by show ¬ m.size.x = _; simpa using hx.ne')
    · rw [if_neg]
      intro h
      exact hbad img himg ⟨h.1.symm, h.2.symm⟩

end

end CostMapModel

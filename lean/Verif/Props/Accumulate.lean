import Verif.Model.Accumulate
import Verif.Spec.Accumulate
import Verif.Props.SubmapEdit
import Verif.Props.Merge

/-!
# Many maps merged into one: C109
-/

set_option linter.unusedSectionVars false

namespace CostMapModel
open CostMap

/-! ## One cell, step by step -/

theorem isLatest_nil {α : Type} (shows : α → Cost → Prop) (c : Cost) : IsLatest shows [] c c := .inr ⟨by simp, rfl⟩

/-- One more source in front. -/
theorem IsLatest.cons {α : Type} {shows : α → Cost → Prop} {o : α} {os : List α} {old mid c : Cost}
    (h1 : (∃ d, shows o d) → shows o mid) (h2 : (¬ ∃ d, shows o d) → mid = old) (h : IsLatest shows os mid c) :
    IsLatest shows (o :: os) old c := by
  rcases h with ⟨b, o', a, rfl, h3, h4⟩ | ⟨h3, rfl⟩
  · exact .inl ⟨o :: b, o', a, rfl, h3, h4⟩
  · by_cases hd : ∃ d, shows o d
    · exact .inl ⟨[], o, os, rfl, h1 hd, h3⟩
    · refine .inr ⟨?_, h2 hd⟩
      rintro o' (_ | ⟨_, ho'⟩)
      · exact fun d h => hd ⟨d, h⟩
      · exact h3 _ (by assumption)

theorem isFirst_nil {α : Type} (shows : α → Cost → Prop) (c : Cost) : IsFirst shows [] c c := by
  by_cases h : c = NO_INFORMATION
  · exact .inr (.inr ⟨h, rfl, by simp⟩)
  · exact .inl ⟨h, rfl⟩

/-- One more source in front. -/
theorem IsFirst.cons {α : Type} {shows : α → Cost → Prop} {o : α} {os : List α} {old mid c : Cost}
    (hk : ∀ d, shows o d → d ≠ NO_INFORMATION) (h1 : old = NO_INFORMATION → (∃ d, shows o d) → shows o mid)
    (h2 : ¬ (old = NO_INFORMATION ∧ ∃ d, shows o d) → mid = old) (h : IsFirst shows os mid c) : IsFirst shows (o :: os) old c := by
  by_cases ho : old = NO_INFORMATION
  · by_cases hd : ∃ d, shows o d
    · have hm := h1 ho hd
      rcases h with ⟨-, rfl⟩ | ⟨h, -⟩ | ⟨h, -⟩
      · exact .inr (.inl ⟨ho, [], o, os, rfl, hm, by simp⟩)
      · exact absurd h (hk _ hm)
      · exact absurd h (hk _ hm)
    · obtain rfl := h2 fun h => hd h.2
      rcases h with ⟨h, -⟩ | ⟨-, b, o', a, rfl, h3, h4⟩ | ⟨-, h3, h4⟩
      · exact absurd ho h
      · refine .inr (.inl ⟨ho, o :: b, o', a, rfl, h3, ?_⟩)
        rintro x (_ | ⟨_, hx⟩)
        · exact fun d h => hd ⟨d, h⟩
        · exact h4 _ (by assumption)
      · refine .inr (.inr ⟨ho, h3, ?_⟩)
        rintro x (_ | ⟨_, hx⟩)
        · exact fun d h => hd ⟨d, h⟩
        · exact h4 _ (by assumption)
  · obtain rfl := h2 fun h => ho h.1
    rcases h with ⟨h, h3⟩ | ⟨h, -⟩ | ⟨h, -⟩
    · exact .inl ⟨h, h3⟩
    · exact absurd h ho
    · exact absurd h ho

/-- When no two sources show something, their order does not matter. -/
theorem IsLatest.perm {α : Type} {shows : α → Cost → Prop} {os os' : List α} {old c : Cost} (hp : os.Perm os')
    (hx : os.Pairwise fun o o' => ¬ ((∃ d, shows o d) ∧ ∃ d, shows o' d)) (h : IsLatest shows os old c) :
    IsLatest shows os' old c := by
  rcases h with ⟨b, o, a, rfl, h1, h2⟩ | ⟨h1, rfl⟩
  · obtain ⟨b', a', rfl⟩ := List.append_of_mem (hp.subset (List.mem_append_right b (List.mem_cons_self (a := o) (l := a))))
    refine .inl ⟨b', o, a', rfl, h1, fun o' ho' d hd => ?_⟩
    have sym : Std.Symm fun (o o' : α) => ¬ ((∃ d, shows o d) ∧ ∃ d, shows o' d) := ⟨fun _ _ h h' => h ⟨h'.2, h'.1⟩⟩
    have hx' := (hp.pairwise_iff (fun h h' => h ⟨h'.2, h'.1⟩)).1 hx
    rw [List.pairwise_append] at hx'
    exact (List.pairwise_cons.1 hx'.2.1).1 _ ho' ⟨⟨c, h1⟩, ⟨d, hd⟩⟩
  · exact .inr ⟨fun o ho => h1 o (hp.symm.subset ho), rfl⟩

/-- A source shows one cost at most, so the latest is one. -/
theorem IsLatest.unique {α : Type} {shows : α → Cost → Prop} {os : List α}
    (hu : ∀ o ∈ os, ∀ d d', shows o d → shows o d' → d = d') {old c c' : Cost} (h : IsLatest shows os old c) (h' : IsLatest shows os old c') : c = c' := by
  induction os generalizing old with
  | nil =>
    rcases h with ⟨b, o, a, e, -⟩ | ⟨-, rfl⟩
    · simp at e
    · rcases h' with ⟨b, o, a, e, -⟩ | ⟨-, rfl⟩
      · simp at e
      · rfl
  | cons o os ih =>
    have key : ∀ {x : Cost}, IsLatest shows (o :: os) old x → ∃ mid, ((∃ d, shows o d) → shows o mid) ∧
        ((¬ ∃ d, shows o d) → mid = old) ∧ IsLatest shows os mid x := by
      rintro x (⟨b, o', a, e, h1, h2⟩ | ⟨h1, rfl⟩)
      · cases b with
        | nil =>
          obtain ⟨rfl, rfl⟩ : o = o' ∧ os = a := by simpa using e
          exact ⟨x, fun _ => h1, fun h => absurd ⟨x, h1⟩ h, .inr ⟨h2, rfl⟩⟩
        | cons y b =>
          obtain ⟨rfl, rfl⟩ : o = y ∧ os = b ++ o' :: a := by simpa using e
          by_cases hd : ∃ d, shows o d
          · obtain ⟨d, hd⟩ := hd
            exact ⟨d, fun _ => hd, fun h => absurd ⟨d, hd⟩ h, .inl ⟨b, o', a, rfl, h1, h2⟩⟩
          · exact ⟨old, fun h => absurd h hd, fun _ => rfl, .inl ⟨b, o', a, rfl, h1, h2⟩⟩
      · exact ⟨x, fun ⟨d, hd⟩ => absurd hd (h1 o (by simp) d), fun _ => rfl, .inr ⟨fun o' h => h1 o' (by simp [h]), rfl⟩⟩
    obtain ⟨m1, a1, a2, a3⟩ := key h
    obtain ⟨m2, b1, b2, b3⟩ := key h'
    obtain rfl : m1 = m2 := by
      by_cases hd : ∃ d, shows o d
      · exact hu o (by simp) _ _ (a1 hd) (b1 hd)
      · rw [a2 hd, b2 hd]
    exact ih (fun o h => hu o (by simp [h])) a3 b3

section
variable {K : Type} [Field K] [LinearOrder K] [IsStrictOrderedRing K] [FloorRing K]

theorem discard_ok {σ α : Type} {f : Act σ α} {s s' : σ} {a : α} (h : f s = (.ok a, s')) : Call.discard f s = (.ok (), s') := by
  unfold Call.discard
  rw [Act.bind_ok h]
  rfl

/-- A loop of which each step takes over what a source shows, and nothing else. -/
theorem loop_latest {α : Type} {step : α → Act (CostMap K) Unit} {ls : List String} {size : Idx} {Inv : CostMap K → Prop}
    {shows : String → Idx → α → Cost → Prop} : ∀ {os : List α},
    (∀ o ∈ os, ∀ m, Inv m → ∃ m', step o m = (.ok (), m') ∧ Inv m' ∧ ∀ l i old, i.In size → m.at l i = .ok old →
      (l ∉ ls → m'.at l i = .ok old) ∧ (l ∈ ls → ∃ mid, m'.at l i = .ok mid ∧ ((∃ d, shows l i o d) → shows l i o mid) ∧
        ((¬ ∃ d, shows l i o d) → mid = old))) →
    ∀ m, Inv m → ∃ m', Act.forEach step os m = (.ok (), m') ∧ Inv m' ∧ ∀ l i old, i.In size → m.at l i = .ok old →
      (l ∉ ls → m'.at l i = .ok old) ∧ (l ∈ ls → ∃ c, m'.at l i = .ok c ∧ IsLatest (shows l i) os old c)
  | [], _, m, hm => ⟨m, rfl, hm, fun _ _ old _ h => ⟨fun _ => h, fun _ => ⟨old, h, isLatest_nil _ _⟩⟩⟩
  | o :: os, hs, m, hm => by
    obtain ⟨m1, e1, h1, v1⟩ := hs o (by simp) m hm
    obtain ⟨m2, e2, h2, v2⟩ := loop_latest (os := os) (fun o ho => hs o (List.mem_cons_of_mem _ ho)) m1 h1
    refine ⟨m2, ?_, h2, fun l i old hi hold => ?_⟩
    · show Act.bind _ _ m = _
      rw [Act.bind_ok e1]
      exact e2
    · obtain ⟨a1, a2⟩ := v1 l i old hi hold
      refine ⟨fun hl => (v2 l i old hi (a1 hl)).1 hl, fun hl => ?_⟩
      obtain ⟨mid, b1, b2, b3⟩ := a2 hl
      obtain ⟨c, c1, c2⟩ := (v2 l i mid hi b1).2 hl
      exact ⟨c, c1, c2.cons b2 b3⟩

/-- A loop of which each step takes over what a source shows where nothing is known. -/
theorem loop_first {α : Type} {step : α → Act (CostMap K) Unit} {l : String} {size : Idx} {Inv : CostMap K → Prop}
    {shows : Idx → α → Cost → Prop} (hk : ∀ i o d, shows i o d → d ≠ NO_INFORMATION) : ∀ {os : List α},
    (∀ o ∈ os, ∀ m, Inv m → ∃ m', step o m = (.ok (), m') ∧ Inv m' ∧ ∀ i, i.In size →
      (∀ l' old, l' ≠ l → m.at l' i = .ok old → m'.at l' i = .ok old) ∧
      ∀ old, m.at l i = .ok old → ∃ mid, m'.at l i = .ok mid ∧
        (old = NO_INFORMATION → (∃ d, shows i o d) → shows i o mid) ∧ (¬ (old = NO_INFORMATION ∧ ∃ d, shows i o d) → mid = old)) →
    ∀ m, Inv m → ∃ m', Act.forEach step os m = (.ok (), m') ∧ Inv m' ∧ ∀ i, i.In size →
      (∀ l' old, l' ≠ l → m.at l' i = .ok old → m'.at l' i = .ok old) ∧
      ∀ old, m.at l i = .ok old → ∃ c, m'.at l i = .ok c ∧ IsFirst (shows i) os old c
  | [], _, m, hm => ⟨m, rfl, hm, fun _ _ => ⟨fun _ _ _ h => h, fun old h => ⟨old, h, isFirst_nil _ _⟩⟩⟩
  | o :: os, hs, m, hm => by
    obtain ⟨m1, e1, h1, v1⟩ := hs o (by simp) m hm
    obtain ⟨m2, e2, h2, v2⟩ := loop_first hk (os := os) (fun o ho => hs o (List.mem_cons_of_mem _ ho)) m1 h1
    refine ⟨m2, ?_, h2, fun i hi => ⟨fun l' old hl hold => (v2 i hi).1 l' old hl ((v1 i hi).1 l' old hl hold), fun old hold => ?_⟩⟩
    · show Act.bind _ _ m = _
      rw [Act.bind_ok e1]
      exact e2
    · obtain ⟨mid, b1, b2, b3⟩ := (v1 i hi).2 old hold
      obtain ⟨c, c1, c2⟩ := (v2 i hi).2 mid b1
      exact ⟨c, c1, c2.cons (hk i o) b2 b3⟩

theorem exists_of_at {m : CostMap K} {l : String} {i : Idx} {c : Cost} (h : m.at l i = .ok c) : m.exists l = true := by
  by_contra hn
  rw [Bool.not_eq_true] at hn
  rw [at_none (exists_false_iff.mp hn)] at h
  cases h

theorem CostMap.SameGeometry.trans' {a b c : CostMap K} (h : SameGeometry a b) (h' : SameGeometry b c) : SameGeometry a c :=
  ⟨h'.length.trans h.length, h'.resolution.trans h.resolution, h'.position.trans h.position, h'.size.trans h.size,
    h'.startIndex.trans h.startIndex⟩

theorem CostMap.SameMeta.trans' {a b c : CostMap K} (h : SameMeta a b) (h' : SameMeta b c) : SameMeta a c :=
  ⟨h'.frameId.trans h.frameId, h'.timestamp.trans h.timestamp, h'.basicLayers.trans h.basicLayers⟩

theorem getPosition_in {m : CostMap K} {i : Idx} (hi : i.In m.size) : ∃ p, m.getPosition i = some p := by
  unfold getPosition positionFromIndex
  rw [if_pos (inRange_iff.2 hi)]
  exact ⟨_, rfl⟩

theorem validCell_single {s : CostMap K} {l : String} (sb : s.basicLayers = [l]) {i : Idx} {old : Cost} (hold : s.at l i = .ok old) :
    s.ValidCell i ↔ old ≠ NO_INFORMATION := by
  unfold ValidCell
  rw [sb]
  constructor
  · rintro ⟨-, h⟩
    obtain ⟨c, h5, h6⟩ := h l (by simp)
    rw [hold] at h5; cases h5; exact h6
  · refine fun h => ⟨by simp, fun l' hl' => ?_⟩
    rw [List.mem_singleton] at hl'
    exact hl' ▸ ⟨old, hold, h⟩

/-- Two offsets of grids that agree up to an eighth of a cell are the same. -/
theorem onGrid_unique {m o : CostMap K} (hr : 0 < m.resolution) {k k' : Idx} (g : OnGrid (m.resolution / 8) m o k)
    (g' : OnGrid (m.resolution / 8) m o k') : k = k' := by
  have key : ∀ {a b : Int} {x : K}, |x - a * m.resolution| ≤ m.resolution / 8 → |x - b * m.resolution| ≤ m.resolution / 8 → a = b := by
    intro a b x h1 h2
    rw [abs_le] at h1 h2
    have k1 : ((a : K) - b) * m.resolution < 1 * m.resolution := by linarith
    have k2 : ((b : K) - a) * m.resolution < 1 * m.resolution := by linarith
    have k1 : (a : K) < b + 1 := by linarith [lt_of_mul_lt_mul_right k1 hr.le]
    have k2 : (b : K) < a + 1 := by linarith [lt_of_mul_lt_mul_right k2 hr.le]
    have : a < b + 1 := by exact_mod_cast k1
    have : b < a + 1 := by exact_mod_cast k2
    omega
  have h1 := key g.x g'.x
  have h2 := key g.y g'.y
  cases k; cases k'; simp only at h1 h2; rw [h1, h2]

/-! ## Exact arithmetic -/

/-- C109. Maps that have the layers are merged into a map one after the other, each overwriting: every call succeeds, the geometry and
the other layers stay, and each cell has the cost that the last map shows that shows one at the centre of the cell, or its old cost. -/
theorem C109_latest {m : CostMap K} (hg : m.Geo) (hc : m.Coherent) {ls : List String} (hb : ∀ l ∈ m.basicLayers, m.exists l = true)
    {os : List (CostMap K)} (ho : ∀ o ∈ os, o.Geo ∧ o.Coherent ∧ ∀ l ∈ ls, o.exists l = true) :
    ∃ m', mergeAll true ls os m = (.ok (), m') ∧ SameGeometry m m' ∧ SameMeta m m' ∧ m'.Coherent ∧
      ∀ l i old, i.In m.size → m.at l i = .ok old →
        (l ∉ ls → m'.at l i = .ok old) ∧ (l ∈ ls → ∃ c, m'.at l i = .ok c ∧ IsLatest (m.Shows l i) os old c) := by
  obtain ⟨m', e, ⟨h1, h2, h3, -⟩, h4⟩ := loop_latest (step := fun o => Call.discard (addDataFrom o false true false ls)) (ls := ls)
    (size := m.size) (Inv := fun s => SameGeometry m s ∧ SameMeta m s ∧ s.Coherent ∧ ∀ l, m.exists l = true → s.exists l = true)
    (shows := m.Shows) (os := os) (fun o hm s ⟨sg, sm, sc, sx⟩ => by
      obtain ⟨o1, o2, o3⟩ := ho o hm
      obtain ⟨s1, e1, g1, n1, c1, x1, k1⟩ := C33_merges_cell_by_cell (sg.geo hg) sc o1 o2 true false ls ls rfl o3
        fun l h => .inl (sx l (hb l (by rw [← sm.basicLayers]; exact h)))
      refine ⟨s1, discard_ok e1, ⟨sg.trans' g1, sm.trans' n1, c1, fun l h => (x1 l).2 (.inl (sx l h))⟩, fun l i old hi hold => ?_⟩
      obtain ⟨p, hp⟩ := getPosition_in hi
      obtain ⟨a1, a2⟩ := k1 l i p ((getPosition_congr sg i).trans hp)
      refine ⟨fun hl => ((a2 fun h => hl h.1).1 (exists_of_at hold)).trans hold, fun hl => ?_⟩
      by_cases hd : ∃ d, m.Shows l i o d
      · obtain ⟨d, hd⟩ := hd
        obtain ⟨q, hq, d1, d2⟩ := id hd
        obtain rfl : p = q := by rw [hp] at hq; cases hq; rfl
        exact ⟨d, a1 d hl (.inl rfl) d1 d2, fun _ => hd, fun h => absurd ⟨d, hd⟩ h⟩
      · exact ⟨old, ((a2 fun h => hd (h.2.2.imp fun d hd => ⟨p, hp, hd⟩)).1 (exists_of_at hold)).trans hold, fun h => absurd h hd,
          fun _ => rfl⟩)
    m ⟨⟨rfl, rfl, rfl, rfl, rfl⟩, ⟨rfl, rfl, rfl⟩, hc, fun _ h => h⟩
  exact ⟨m', e, h1, h2, h3, h4⟩

/-- C109. Merged without overwriting into a map whose only basic layer it is, a layer keeps what is known; elsewhere it has the cost that
the first map shows that shows one. The other layers stay. -/
theorem C109_first {m : CostMap K} (hg : m.Geo) (hc : m.Coherent) {l : String} (hb : m.basicLayers = [l]) (hl : m.exists l = true)
    {os : List (CostMap K)} (ho : ∀ o ∈ os, o.Geo ∧ o.Coherent ∧ o.exists l = true) :
    ∃ m', mergeAll false [l] os m = (.ok (), m') ∧ SameGeometry m m' ∧ SameMeta m m' ∧ m'.Coherent ∧
      ∀ i, i.In m.size → (∀ l' old, l' ≠ l → m.at l' i = .ok old → m'.at l' i = .ok old) ∧
        ∀ old, m.at l i = .ok old → ∃ c, m'.at l i = .ok c ∧ IsFirst (m.Shows l i) os old c := by
  obtain ⟨m', e, ⟨h1, h2, h3, -⟩, h4⟩ := loop_first (step := fun o => Call.discard (addDataFrom o false false false [l])) (l := l)
    (size := m.size) (Inv := fun s => SameGeometry m s ∧ SameMeta m s ∧ s.Coherent ∧ s.exists l = true)
    (shows := m.Shows l) (os := os) (fun i o d ⟨_, _, _, h⟩ => h) (fun o hm s ⟨sg, sm, sc, sx⟩ => by
      obtain ⟨o1, o2, o3⟩ := ho o hm
      have sb : s.basicLayers = [l] := sm.basicLayers.trans hb
      obtain ⟨s1, e1, g1, n1, c1, x1, k1⟩ := C33_merges_cell_by_cell (sg.geo hg) sc o1 o2 false false [l] [l] rfl
        (by simpa using o3) fun l' h => .inr (by rw [sb] at h; exact h)
      have val : ∀ {i old}, s.at l i = .ok old → (s.ValidCell i ↔ old ≠ NO_INFORMATION) := validCell_single sb
      refine ⟨s1, discard_ok e1, ⟨sg.trans' g1, sm.trans' n1, c1, (x1 l).2 (.inl sx)⟩, fun i hi => ?_⟩
      obtain ⟨p, hp⟩ := getPosition_in hi
      refine ⟨fun l' old hl' hold => ?_, fun old hold => ?_⟩
      · exact (((k1 l' i p ((getPosition_congr sg i).trans hp)).2 fun h => hl' (List.mem_singleton.1 h.1)).1 (exists_of_at hold)).trans hold
      · obtain ⟨a1, a2⟩ := k1 l i p ((getPosition_congr sg i).trans hp)
        by_cases hd : old = NO_INFORMATION ∧ ∃ d, m.Shows l i o d
        · obtain ⟨h0, d, hd⟩ := hd
          obtain ⟨q, hq, d1, d2⟩ := id hd
          obtain rfl : p = q := by rw [hp] at hq; cases hq; rfl
          exact ⟨d, a1 d (by simp) (.inr fun h => (val hold).1 h h0) d1 d2, fun _ _ => hd, fun h => absurd ⟨h0, d, hd⟩ h⟩
        · refine ⟨old, ((a2 fun h => hd ⟨?_, h.2.2.imp fun d hd => ⟨p, hp, hd⟩⟩).1 sx).trans hold, fun h h' => absurd ⟨h, h'⟩ hd,
            fun _ => rfl⟩
          by_contra h0
          exact (h.2.1.resolve_left (by simp)) ((val hold).2 h0))
    m ⟨⟨rfl, rfl, rfl, rfl, rfl⟩, ⟨rfl, rfl, rfl⟩, hc, hl⟩
  exact ⟨m', e, h1, h2, h3, h4⟩

/-- C109. When no two of the maps show something at the same cell, they can be merged in any order. -/
theorem C109_order {m : CostMap K} (hg : m.Geo) (hc : m.Coherent) {ls : List String} (hb : ∀ l ∈ m.basicLayers, m.exists l = true)
    {os os' : List (CostMap K)} (ho : ∀ o ∈ os, o.Geo ∧ o.Coherent ∧ ∀ l ∈ ls, o.exists l = true) (hp : os.Perm os')
    (hx : ∀ l ∈ ls, ∀ i, os.Pairwise fun o o' => ¬ ((∃ d, m.Shows l i o d) ∧ ∃ d, m.Shows l i o' d)) :
    ∃ m' m'', mergeAll true ls os m = (.ok (), m') ∧ mergeAll true ls os' m = (.ok (), m'') ∧
      ∀ l i, m.exists l = true → i.In m.size → m''.at l i = m'.at l i := by
  obtain ⟨m', e, -, -, -, h⟩ := C109_latest hg hc hb ho
  obtain ⟨m'', e', -, -, -, h'⟩ := C109_latest hg hc hb (fun o h => ho o (hp.symm.subset h))
  refine ⟨m', m'', e, e', fun l i hl hi => ?_⟩
  obtain ⟨old, hold⟩ := hc.at_ok hl hi
  by_cases hls : l ∈ ls
  · obtain ⟨c, c1, c2⟩ := (h l i old hi hold).2 hls
    obtain ⟨c', c3, c4⟩ := (h' l i old hi hold).2 hls
    have : c' = c := c4.unique (fun o _ d d' ⟨p, hp, h1, _⟩ ⟨p', hp', h2, _⟩ => by
      rw [hp] at hp'; cases hp'; rw [h1] at h2; cases h2; rfl) (c2.perm hp (hx l hls i))
    rw [c1, c3, this]
  · rw [(h l i old hi hold).1 hls, (h' l i old hi hold).1 hls]

/-! ## The machine -/

theorem showsThere_unique {m : CostMap K} (hr : 0 < m.resolution) {l : String} {i : Idx} {o : CostMap K} (hs : o.startIndex.In o.size)
    {c d : Cost} (h : m.ShowsThere l i o c) (h' : m.ShowsThere l i o d) : c = d := by
  obtain ⟨k, j, g, op, e, -⟩ := h
  obtain ⟨k', j', g', op', e', -⟩ := h'
  obtain rfl := onGrid_unique hr g g'
  obtain rfl := ((opposite_iff hs).1 op).2.trans ((opposite_iff hs).1 op').2.symm
  rw [e] at e'
  cases e'
  rfl

/-- One merge on the machine. -/
theorem merge_step {w : World K} {F : Fmt K} {rf : K → K} (hrd : DoublePrecision F.rd) (hF : IntsExact F.rd)
    (htop : 2 ^ 31 ≤ F.top) {m s o : CostMap K} (hs : HeldI w F rf s) (sg : SameGeometry m s) (ho : HeldI w F rf o)
    (hk : ∃ k, OnGrid (m.resolution / 8) m o k) {ls : List String} (hls : ∀ l ∈ ls, o.exists l = true)
    (hb : ∀ l ∈ s.basicLayers, s.exists l = true ∨ l ∈ ls) (overwrite : Bool) :
    ∃ s', Call.discard (addDataFromI F.rd o false overwrite false ls) s = (.ok (), s') ∧ HeldI w F rf s' ∧ SameGeometry s s' ∧
      SameMeta s s' ∧ s'.Coherent ∧ (∀ l, s'.exists l = true ↔ s.exists l = true ∨ l ∈ ls) ∧
      ∀ l i, i.In m.size →
        (∀ c, l ∈ ls → (overwrite = true ∨ ¬ s.ValidCell i) → m.ShowsThere l i o c → s'.at l i = .ok c) ∧
        (¬ (l ∈ ls ∧ (overwrite = true ∨ ¬ s.ValidCell i) ∧ ∃ c, m.ShowsThere l i o c) → s.exists l = true →
          s'.at l i = s.at l i) := by
  obtain ⟨k, hk⟩ := hk
  have hm := held_inWorld hrd hF htop hs
  have hw := held_inWorld hrd hF htop ho
  have hr := hm.geo.res_pos
  have hk1 : OnGrid (s.resolution / 8) s o k := by rw [sg.resolution]; exact hk.congr_left sg
  have hk4 : OnGrid (s.resolution / 4) s o k := ⟨hk1.res, hk1.x.trans (by linarith), hk1.y.trans (by linarith)⟩
  obtain ⟨s', e, g, n, c, x, v⟩ := C76_merges_cell_by_cell hrd hm.geo hm.tame43 hm.coherent hw.geo hw.tame43 hw.coherent hk4 overwrite
    false ls ls rfl hls hb
  have e' := (C79_addDataFrom hrd hm.geo.start hm.small hw.geo hw.tame hw.small overwrite false ls).trans e
  have fits : w.Fits F rf s (.addDataFrom o false overwrite false ls) :=
    ⟨hw.geo, hw.coherent, hw.tame43, hw.small, ⟨k, hk1⟩, by simpa using hls, by simpa using hb, by simp⟩
  have op : ∀ {i j}, Opposite m o k i j ↔ Opposite s o k i j := by
    intro i j
    unfold Opposite logical
    rw [sg.size, sg.startIndex]
  refine ⟨s', discard_ok e', .returned _ hs fits (discard_ok e'), g, n, c, x, fun l i hi => ?_⟩
  obtain ⟨v1, v2⟩ := v l i (by rw [sg.size]; exact hi)
  constructor
  · rintro d hl hov ⟨k', j, hg, hop, hd, hne⟩
    have hmr : 0 < m.resolution := by rw [← sg.resolution]; exact hr
    have ek : k' = k := onGrid_unique hmr hg hk
    subst ek
    exact v1 j d hl hov (op.1 hop) hd hne
  · intro hn hx
    exact (v2 fun ⟨h1, h2, j, d, h3, h4, h5⟩ => hn ⟨h1, h2, d, k, j, hk, op.2 h3, h4, h5⟩).1 hx

/-- C109. On the machine, for maps with any history and whose grids agree up to an eighth of a cell: the same, and what results is
again a map of C101. -/
theorem C109_latest_machine {w : World K} {F : Fmt K} {rf : K → K} (hrd : DoublePrecision F.rd) (hF : IntsExact F.rd)
    (htop : 2 ^ 31 ≤ F.top) {m : CostMap K} (hm : HeldI w F rf m) {ls : List String} (hb : ∀ l ∈ m.basicLayers, m.exists l = true)
    {os : List (CostMap K)}
    (ho : ∀ o ∈ os, HeldI w F rf o ∧ (∃ k, OnGrid (m.resolution / 8) m o k) ∧ ∀ l ∈ ls, o.exists l = true) :
    ∃ m', mergeAllI F.rd true ls os m = (.ok (), m') ∧ HeldI w F rf m' ∧ SameGeometry m m' ∧ SameMeta m m' ∧
      ∀ l i old, i.In m.size → m.at l i = .ok old →
        (l ∉ ls → m'.at l i = .ok old) ∧ (l ∈ ls → ∃ c, m'.at l i = .ok c ∧ IsLatest (m.ShowsThere l i) os old c) := by
  obtain ⟨m', e, ⟨h0, h1, h2, -⟩, h4⟩ := loop_latest (step := fun o => Call.discard (addDataFromI F.rd o false true false ls)) (ls := ls)
    (size := m.size) (Inv := fun s => HeldI w F rf s ∧ SameGeometry m s ∧ SameMeta m s ∧ ∀ l, m.exists l = true → s.exists l = true)
    (shows := m.ShowsThere) (os := os) (fun o hmem s ⟨sh, sg, sm, sx⟩ => by
      obtain ⟨o1, o2, o3⟩ := ho o hmem
      obtain ⟨s1, e1, h1, g1, n1, -, x1, k1⟩ := merge_step hrd hF htop sh sg o1 o2 o3
        (fun l h => .inl (sx l (hb l (by rw [← sm.basicLayers]; exact h)))) true
      refine ⟨s1, e1, ⟨h1, sg.trans' g1, sm.trans' n1, fun l h => (x1 l).2 (.inl (sx l h))⟩, fun l i old hi hold => ?_⟩
      obtain ⟨a1, a2⟩ := k1 l i hi
      refine ⟨fun hl => (a2 (fun h => hl h.1) (exists_of_at hold)).trans hold, fun hl => ?_⟩
      by_cases hd : ∃ d, m.ShowsThere l i o d
      · obtain ⟨d, hd⟩ := hd
        exact ⟨d, a1 d hl (.inl rfl) hd, fun _ => hd, fun h => absurd ⟨d, hd⟩ h⟩
      · exact ⟨old, (a2 (fun h => hd h.2.2) (exists_of_at hold)).trans hold, fun h => absurd h hd, fun _ => rfl⟩)
    m ⟨hm, ⟨rfl, rfl, rfl, rfl, rfl⟩, ⟨rfl, rfl, rfl⟩, fun _ h => h⟩
  exact ⟨m', e, h0, h1, h2, h4⟩

/-- C109. The order on the machine. -/
theorem C109_order_machine {w : World K} {F : Fmt K} {rf : K → K} (hrd : DoublePrecision F.rd) (hF : IntsExact F.rd)
    (htop : 2 ^ 31 ≤ F.top) {m : CostMap K} (hm : HeldI w F rf m) {ls : List String} (hb : ∀ l ∈ m.basicLayers, m.exists l = true)
    {os os' : List (CostMap K)}
    (ho : ∀ o ∈ os, HeldI w F rf o ∧ (∃ k, OnGrid (m.resolution / 8) m o k) ∧ ∀ l ∈ ls, o.exists l = true) (hp : os.Perm os')
    (hx : ∀ l ∈ ls, ∀ i, os.Pairwise fun o o' => ¬ ((∃ d, m.ShowsThere l i o d) ∧ ∃ d, m.ShowsThere l i o' d)) :
    ∃ m' m'', mergeAllI F.rd true ls os m = (.ok (), m') ∧ mergeAllI F.rd true ls os' m = (.ok (), m'') ∧
      ∀ l i, m.exists l = true → i.In m.size → m''.at l i = m'.at l i := by
  have hw := held_inWorld hrd hF htop hm
  obtain ⟨m', e, -, -, -, h⟩ := C109_latest_machine hrd hF htop hm hb ho
  obtain ⟨m'', e', -, -, -, h'⟩ := C109_latest_machine hrd hF htop hm hb (fun o h => ho o (hp.symm.subset h))
  refine ⟨m', m'', e, e', fun l i hl hi => ?_⟩
  obtain ⟨old, hold⟩ := hw.coherent.at_ok hl hi
  by_cases hls : l ∈ ls
  · obtain ⟨c, c1, c2⟩ := (h l i old hi hold).2 hls
    obtain ⟨c', c3, c4⟩ := (h' l i old hi hold).2 hls
    have : c' = c := c4.unique (fun o hmem d d' h1 h2 => showsThere_unique hw.geo.res_pos
      (held_inWorld hrd hF htop (ho o (hp.symm.subset hmem)).1).geo.start h1 h2) (c2.perm hp (hx l hls i))
    rw [c1, c3, this]
  · rw [(h l i old hi hold).1 hls, (h' l i old hi hold).1 hls]

/-- C109. Without overwriting, on the machine. -/
theorem C109_first_machine {w : World K} {F : Fmt K} {rf : K → K} (hrd : DoublePrecision F.rd) (hF : IntsExact F.rd)
    (htop : 2 ^ 31 ≤ F.top) {m : CostMap K} (hm : HeldI w F rf m) {l : String} (hb : m.basicLayers = [l]) (hl : m.exists l = true)
    {os : List (CostMap K)} (ho : ∀ o ∈ os, HeldI w F rf o ∧ (∃ k, OnGrid (m.resolution / 8) m o k) ∧ o.exists l = true) :
    ∃ m', mergeAllI F.rd false [l] os m = (.ok (), m') ∧ HeldI w F rf m' ∧ SameGeometry m m' ∧ SameMeta m m' ∧
      ∀ i, i.In m.size → (∀ l' old, l' ≠ l → m.at l' i = .ok old → m'.at l' i = .ok old) ∧
        ∀ old, m.at l i = .ok old → ∃ c, m'.at l i = .ok c ∧ IsFirst (m.ShowsThere l i) os old c := by
  obtain ⟨m', e, ⟨h0, h1, h2, -⟩, h4⟩ := loop_first (step := fun o => Call.discard (addDataFromI F.rd o false false false [l])) (l := l)
    (size := m.size) (Inv := fun s => HeldI w F rf s ∧ SameGeometry m s ∧ SameMeta m s ∧ s.exists l = true)
    (shows := m.ShowsThere l) (os := os) (fun i o d ⟨_, _, _, _, _, h⟩ => h) (fun o hmem s ⟨sh, sg, sm, sx⟩ => by
      obtain ⟨o1, o2, o3⟩ := ho o hmem
      have sb : s.basicLayers = [l] := sm.basicLayers.trans hb
      obtain ⟨s1, e1, h1, g1, n1, -, x1, k1⟩ := merge_step hrd hF htop sh sg o1 o2 (ls := [l]) (by simpa using o3)
        (fun l' h => .inr (by rw [sb] at h; exact h)) false
      have val : ∀ {i old}, s.at l i = .ok old → (s.ValidCell i ↔ old ≠ NO_INFORMATION) := validCell_single sb
      refine ⟨s1, e1, ⟨h1, sg.trans' g1, sm.trans' n1, (x1 l).2 (.inl sx)⟩, fun i hi => ⟨fun l' old hl' hold => ?_, fun old hold => ?_⟩⟩
      · exact ((k1 l' i hi).2 (fun h => hl' (List.mem_singleton.1 h.1)) (exists_of_at hold)).trans hold
      · obtain ⟨a1, a2⟩ := k1 l i hi
        by_cases hd : old = NO_INFORMATION ∧ ∃ d, m.ShowsThere l i o d
        · obtain ⟨h0, d, hd⟩ := hd
          exact ⟨d, a1 d (by simp) (.inr fun h => (val hold).1 h h0) hd, fun _ _ => hd, fun h => absurd ⟨h0, d, hd⟩ h⟩
        · refine ⟨old, (a2 (fun h => hd ⟨?_, h.2.2⟩) sx).trans hold, fun h h' => absurd ⟨h, h'⟩ hd, fun _ => rfl⟩
          by_contra h0
          exact (h.2.1.resolve_left (by simp)) ((val hold).2 h0))
    m ⟨hm, ⟨rfl, rfl, rfl, rfl, rfl⟩, ⟨rfl, rfl, rfl⟩, hl⟩
  exact ⟨m', e, h0, h1, h2, h4⟩

end
/-! ## Cases -/

-- Two maps are merged: one with the same grid and a moved buffer, one of which the costs are all 9.
example : ∃ m' c, mergeAll true ["a"] [Demo.rotated, Demo.small] Demo.base = (.ok (), m') ∧ m'.at "a" ⟨1, 1⟩ = .ok c ∧
    IsLatest (Demo.base.Shows "a" ⟨1, 1⟩) [Demo.rotated, Demo.small] 11 c := by
  obtain ⟨m', e, -, -, -, h⟩ := C109_latest Demo.base_geo Demo.base_coherent (ls := ["a"]) (by decide +kernel)
    (os := [Demo.rotated, Demo.small]) (by
      intro o ho
      simp only [List.mem_cons, List.not_mem_nil, or_false] at ho
      rcases ho with rfl | rfl
      · exact ⟨Demo.rotated_geo, Demo.rotated_coherent, by decide +kernel⟩
      · exact ⟨Demo.small_geo, Demo.small_coherent, by decide +kernel⟩)
  obtain ⟨c, c1, c2⟩ := (h "a" ⟨1, 1⟩ 11 (by decide +kernel) (by decide +kernel)).2 (by simp)
  exact ⟨m', c, e, c1, c2⟩

-- The second of them shows 9 there.
example : Demo.base.Shows "a" ⟨1, 1⟩ Demo.small 9 := ⟨⟨3 / 2, -3 / 4⟩, by decide +kernel, by decide +kernel, by decide⟩

example : ∃ m', mergeAll false ["a"] [Demo.rotated, Demo.small] Demo.base = (.ok (), m') ∧ m'.at "a" ⟨1, 1⟩ = .ok 11 := by
  obtain ⟨m', e, -, -, -, h⟩ := C109_first Demo.base_geo Demo.base_coherent (l := "a") (by decide +kernel) (by decide +kernel)
    (os := [Demo.rotated, Demo.small]) (by
      intro o ho
      simp only [List.mem_cons, List.not_mem_nil, or_false] at ho
      rcases ho with rfl | rfl
      · exact ⟨Demo.rotated_geo, Demo.rotated_coherent, by decide +kernel⟩
      · exact ⟨Demo.small_geo, Demo.small_coherent, by decide +kernel⟩)
  obtain ⟨c, c1, c2⟩ := (h ⟨1, 1⟩ (by decide +kernel)).2 11 (by decide +kernel)
  rcases c2 with ⟨-, rfl⟩ | ⟨h, -⟩ | ⟨h, -⟩
  · exact ⟨m', e, c1⟩
  · exact absurd h (by decide)
  · exact absurd h (by decide)

namespace Demo

/-- The upper part of the base map, and the lower part. -/
def upper : CostMap ℚ := small.setPosition ⟨3 / 2, -1⟩
def lower : CostMap ℚ := small.setPosition ⟨0, -1⟩

theorem small_at (p : Vec ℚ) : (small.setPosition p).Geo ∧ (small.setPosition p).Coherent ∧ (small.setPosition p).exists "a" = true :=
  ⟨⟨small_geo.res_pos, small_geo.size_x, small_geo.size_y, small_geo.len_x, small_geo.len_y, small_geo.start⟩,
    small_coherent.of_eq rfl rfl rfl, by rw [show (small.setPosition p).exists "a" = small.exists "a" from rfl]; decide +kernel⟩

theorem inside_of_shows {l : String} {i : Idx} {o : CostMap ℚ} {d : Cost} (h : base.Shows l i o d) :
    i.In base.size ∧ ∃ p, base.getPosition i = some p ∧ o.isInside p = true := by
  obtain ⟨p, hp, h, -⟩ := h
  constructor
  · by_contra hi
    unfold getPosition positionFromIndex at hp
    rw [if_neg (by rw [inRange_iff]; exact hi)] at hp
    cases hp
  · refine ⟨p, hp, ?_⟩
    by_contra h0
    unfold atPosition at h
    rw [show o.getIndex p = ((o.getIndex p).1, o.isInside p) from rfl, Bool.eq_false_iff.2 h0] at h
    cases h

theorem disjoint (i : Idx) : ¬ ((∃ d, base.Shows "a" i upper d) ∧ ∃ d, base.Shows "a" i lower d) := by
  rintro ⟨⟨d, hd⟩, ⟨d', hd'⟩⟩
  obtain ⟨hi, p, hp, h1⟩ := inside_of_shows hd
  obtain ⟨-, p', hp', h2⟩ := inside_of_shows hd'
  rw [hp] at hp'
  cases hp'
  have key : ∀ x ∈ List.range 5, ∀ y ∈ List.range 4, ((base.getPosition ⟨x, y⟩).any fun p => upper.isInside p && lower.isInside p) = false := by
    decide +kernel
  rw [base_size] at hi
  obtain ⟨a1, a2, a3, a4⟩ := hi
  have := key i.x.toNat (by rw [List.mem_range]; simp only at a2; omega) i.y.toNat (by rw [List.mem_range]; simp only at a4; omega)
  rw [Int.toNat_of_nonneg a1, Int.toNat_of_nonneg a3] at this
  rw [show (⟨i.x, i.y⟩ : Idx) = i from rfl, hp] at this
  simp [h1, h2] at this

end Demo

example : ∃ m' m'', mergeAll true ["a"] [Demo.upper, Demo.lower] Demo.base = (.ok (), m') ∧
    mergeAll true ["a"] [Demo.lower, Demo.upper] Demo.base = (.ok (), m'') ∧ m''.at "a" ⟨4, 2⟩ = m'.at "a" ⟨4, 2⟩ := by
  obtain ⟨m', m'', e1, e2, h⟩ := C109_order Demo.base_geo Demo.base_coherent (ls := ["a"]) (by decide +kernel)
    (os := [Demo.upper, Demo.lower]) (os' := [Demo.lower, Demo.upper]) (by
      intro o ho
      simp only [List.mem_cons, List.not_mem_nil, or_false] at ho
      rcases ho with rfl | rfl
      · exact ⟨(Demo.small_at _).1, (Demo.small_at _).2.1, fun l hl => by rw [List.mem_singleton.1 hl]; exact (Demo.small_at _).2.2⟩
      · exact ⟨(Demo.small_at _).1, (Demo.small_at _).2.1, fun l hl => by rw [List.mem_singleton.1 hl]; exact (Demo.small_at _).2.2⟩)
    (List.Perm.swap _ _ _) (by
      intro l hl i
      rw [List.mem_singleton] at hl
      subst hl
      simpa using Demo.disjoint i)
  exact ⟨m', m'', e1, e2, h "a" ⟨4, 2⟩ (by decide +kernel) (by decide +kernel)⟩

namespace Demo

/-- The map with cells of a tenth, a row further up. -/
def tenthsUp : CostMap ℚ := tenths.setPosition ⟨toDouble (1 / 5), 0⟩

theorem tenthsUp_held : HeldI hundred binary64 toFloat tenthsUp :=
  .returned (.plain (.setPosition ⟨toDouble (1 / 5), 0⟩)) tenths_held (by show PointIn _ _; unfold PointIn; decide +kernel) rfl

theorem tenthsUp_grid : OnGrid (tenths.resolution / 8) tenths tenthsUp ⟨1, 0⟩ := ⟨by decide +kernel, by decide +kernel, by decide +kernel⟩

end Demo

-- The cell (2, 3) of the map gets the cost of the cell (3, 3) of the map a row further up.
example : ∃ m', mergeAllI toDouble true ["a"] [Demo.tenths, Demo.tenthsUp] Demo.tenths = (.ok (), m') ∧ m'.at "a" ⟨2, 3⟩ = .ok 33 := by
  obtain ⟨m', e, -, -, -, h⟩ := C109_latest_machine (F := binary64) (rf := toFloat) toDouble_precision toDouble_ints Demo.top64
    Demo.tenths_held (ls := ["a"]) (by decide +kernel) (os := [Demo.tenths, Demo.tenthsUp]) (by
      intro o ho
      simp only [List.mem_cons, List.not_mem_nil, or_false] at ho
      rcases ho with rfl | rfl
      · exact ⟨Demo.tenths_held, ⟨⟨0, 0⟩, by decide +kernel, by decide +kernel, by decide +kernel⟩, by decide +kernel⟩
      · exact ⟨Demo.tenthsUp_held, ⟨_, Demo.tenthsUp_grid⟩, by decide +kernel⟩)
  obtain ⟨c, c1, c2⟩ := (h "a" ⟨2, 3⟩ 23 (by decide +kernel) (by decide +kernel)).2 (by simp)
  have hs : Demo.tenths.ShowsThere "a" ⟨2, 3⟩ Demo.tenthsUp 33 :=
    ⟨⟨1, 0⟩, ⟨3, 3⟩, Demo.tenthsUp_grid, ⟨by decide +kernel, by decide +kernel⟩, by decide +kernel, by decide⟩
  refine ⟨m', e, c1.trans ?_⟩
  rw [c2.unique (c' := 33) (fun o ho d d' h h' => ?_) (.inl ⟨[Demo.tenths], Demo.tenthsUp, [], rfl, hs, by simp⟩)]
  simp only [List.mem_cons, List.not_mem_nil, or_false] at ho
  rcases ho with rfl | rfl
  · exact showsThere_unique (by decide +kernel) (by decide +kernel) h h'
  · exact showsThere_unique (by decide +kernel) (by decide +kernel) h h'

end CostMapModel

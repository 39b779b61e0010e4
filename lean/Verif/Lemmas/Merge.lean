import Verif.Model.Merge
import Verif.Spec.Merge
import Verif.Lemmas.Access
import Verif.Lemmas.Iteration
import Verif.Lemmas.Move

/-! # Loops over all cells; merging -/

set_option linter.unusedSectionVars false

namespace CostMapModel

theorem Act.bind_ok {σ α β : Type} {f : Act σ α} {g : α → Act σ β} {s s' : σ} {a : α} (h : f s = (.ok a, s')) :
    Act.bind f g s = g a s' := by simp only [Act.bind, h]

theorem Act.Keeps.lift {σ α : Type} {P : σ → Prop} (r : Res α) : Act.Keeps P (Act.lift r : Act σ α) := fun _ h => h

theorem Act.Keeps.forIter {σ τ β : Type} {P : σ → Prop} (I : IterOps τ β) {body : β → Act σ Unit}
    (hb : ∀ b, Act.Keeps P (body b)) : ∀ (n : Nat) (it : τ), Act.Keeps P (Act.forIter I body n it)
  | 0, _ => fun _ h => h
  | n + 1, it => by
    unfold Act.forIter
    split
    · exact Act.Keeps.pure ()
    · exact (Act.Keeps.lift _).bind fun x => (hb x).bind fun _ => (Act.Keeps.lift _).bind fun it' =>
        Act.Keeps.forIter I hb n it'

/-- A loop over an iterator is a loop over the values it visits. -/
theorem Act.forIter_eq {σ τ β : Type} {I : IterOps τ β} (body : β → Act σ Unit) {it : τ} {xs : List β}
    (h : Visits I it xs) : ∀ n, xs.length < n → ∀ s : σ, Act.forIter I body n it s = Act.forEach body xs s := by
  induction h with
  | done hp =>
    intro n hn s
    obtain ⟨k, rfl⟩ : ∃ k, n = k + 1 := ⟨n - 1, by simp at hn; omega⟩
    simp only [Act.forIter, hp, if_true, Act.forEach]
  | @step it it' x xs hp hd hnx hv ih =>
    intro n hn s
    obtain ⟨k, rfl⟩ : ∃ k, n = k + 1 := ⟨n - 1, by simp at hn; omega⟩
    simp only [Act.forIter, hp, Bool.false_eq_true, if_false, Act.forEach]
    have e1 : (Act.lift (I.deref it) : Act σ β) s = (.ok x, s) := by simp [Act.lift, hd]
    rw [Act.bind_ok e1]
    unfold Act.bind
    rcases hbx : body x s with ⟨r, s'⟩
    cases r with
    | ok a =>
      simp only [Act.lift, hnx]
      exact ih k (by simp at hn; omega) s'
    | _ => rfl

namespace CostMap
variable {K : Type} [Field K] [LinearOrder K] [IsStrictOrderedRing K] [FloorRing K]

/-- The cells of a map in the order of `CostMapIterator`. -/
def cells (m : CostMap K) : List Idx := (rowMajor m.size).map fun u => bufferIdx u m.size m.startIndex

theorem mem_cells {m : CostMap K} (hs : m.startIndex.In m.size) {i : Idx} : i ∈ m.cells ↔ i.In m.size := by
  unfold cells
  rw [List.mem_map]
  constructor
  · rintro ⟨u, hu, rfl⟩; exact bufferIdx_in (mem_rowMajor.mp hu) hs
  · intro hi
    exact ⟨_, mem_rowMajor.mpr (unwrapIdx_in hi hs), buffer_unwrap hi hs⟩

theorem cells_nodup {m : CostMap K} (hs : m.startIndex.In m.size) : m.cells.Nodup := by
  refine List.Nodup.map_on ?_ (rowMajor_nodup _)
  intro u hu v hv huv
  rw [mem_rowMajor] at hu hv
  rw [← unwrap_buffer hu hs, ← unwrap_buffer hv hs, huv]

theorem forCells_eq {m : CostMap K} (hs : m.startIndex.In m.size) (body : Idx → Act (CostMap K) Unit) :
    forCells body m = Act.forEach body m.cells m := by
  unfold forCells
  refine Act.forIter_eq body (costMapIter_visits hs clamp1) _ ?_ m
  rw [List.length_map, rowMajor_length]
  omega

theorem forCells_keeps {P : CostMap K → Prop} {body : Idx → Act (CostMap K) Unit}
    (hb : ∀ i, Act.Keeps P (body i)) : Act.Keeps P (forCells body) :=
  fun m h => Act.Keeps.forIter _ hb _ _ m h

/-- A loop whose body rewrites only its own cell, as a function of that cell. -/
theorem forEach_cells {body : Idx → Act (CostMap K) Unit} {m₀ : CostMap K} {new : String → Idx → Res Cost} :
    ∀ {xs : List Idx}, xs.Nodup →
    (∀ i ∈ xs, ∀ m, SameShape m₀ m → (∀ l, m.at l i = m₀.at l i) →
      ∃ m', body i m = (.ok (), m') ∧ SameShape m m' ∧ (∀ l j, j ≠ i → m'.at l j = m.at l j) ∧
        ∀ l, m'.at l i = new l i) →
    ∀ {m}, SameShape m₀ m → (∀ i ∈ xs, ∀ l, m.at l i = m₀.at l i) →
    ∃ m', Act.forEach body xs m = (.ok (), m') ∧ SameShape m m' ∧
      (∀ l i, i ∉ xs → m'.at l i = m.at l i) ∧ ∀ l, ∀ i ∈ xs, m'.at l i = new l i
  | [], _, _, m, _, _ => ⟨m, rfl, SameShape.refl m, fun _ _ _ => rfl, fun _ i hi => by simp at hi⟩
  | x :: xs, hn, hb, m, hsh, heq => by
    rw [List.nodup_cons] at hn
    obtain ⟨m1, e1, hs1, ho1, hx1⟩ := hb x (by simp) m hsh (heq x (by simp))
    have heq1 : ∀ i ∈ xs, ∀ l, m1.at l i = m₀.at l i := by
      intro i hi l
      have : i ≠ x := fun h => hn.1 (h ▸ hi)
      rw [ho1 l i this, heq i (by simp [hi])]
    obtain ⟨m2, e2, hs2, ho2, hx2⟩ := forEach_cells hn.2 (fun i hi => hb i (by simp [hi])) (hsh.trans hs1) heq1
    refine ⟨m2, ?_, hs1.trans hs2, ?_, ?_⟩
    · simp only [Act.forEach, Act.bind, e1]; exact e2
    · intro l i hi
      rw [List.mem_cons, not_or] at hi
      rw [ho2 l i hi.2, ho1 l i hi.1]
    · intro l i hi
      by_cases h : i ∈ xs
      · exact hx2 l i h
      · have h' : i = x := (List.mem_cons.mp hi).resolve_right h
        subst h'
        rw [ho2 l i h, hx1]

/-! ## Validity -/

theorem allValid_eq {m : CostMap K} {i : Idx} : ∀ {ls : List String}, (∀ l ∈ ls, ∃ c, m.at l i = .ok c) →
    ∃ b, m.allValid i ls = .ok b ∧ (b = true ↔ ∀ l ∈ ls, ∃ c, m.at l i = .ok c ∧ c ≠ NO_INFORMATION)
  | [], _ => ⟨true, rfl, by simp⟩
  | l :: ls, h => by
    obtain ⟨c, hc⟩ := h l (by simp)
    obtain ⟨b, hb, hb'⟩ := allValid_eq (m := m) (i := i) (ls := ls) (fun l' hl' => h l' (by simp [hl']))
    by_cases hn : c = NO_INFORMATION
    · refine ⟨false, by simp [allValid, hc, hn], ?_⟩
      simp only [Bool.false_eq_true, false_iff]
      intro hall
      obtain ⟨c', hc', hne⟩ := hall l (by simp)
      rw [hc] at hc'; cases hc'
      exact hne hn
    · refine ⟨b, by simp [allValid, hc, hn, hb], ?_⟩
      rw [hb']
      constructor
      · intro hall l' hl'
        rcases List.mem_cons.mp hl' with rfl | hl'
        · exact ⟨c, hc, hn⟩
        · exact hall l' hl'
      · intro hall l' hl'
        exact hall l' (by simp [hl'])

theorem isValid_eq {m : CostMap K} {i : Idx} (h : ∀ l ∈ m.basicLayers, ∃ c, m.at l i = .ok c) :
    ∃ b, m.isValid i = .ok b ∧ (b = true ↔ m.basicLayers ≠ [] ∧
      ∀ l ∈ m.basicLayers, ∃ c, m.at l i = .ok c ∧ c ≠ NO_INFORMATION) := by
  unfold isValid isValidLayers
  by_cases he : m.basicLayers = []
  · exact ⟨false, by simp [he], by simp [he]⟩
  · obtain ⟨b, hb, hb'⟩ := allValid_eq h
    refine ⟨b, ?_, ?_⟩
    · rw [if_neg (by simpa using he), hb]
    · rw [hb']; simp [he]

/-- Within a map of unchanged shape, validity of a cell depends only on that cell. -/
theorem isValid_congr {m m' : CostMap K} {i : Idx} (hb : m'.basicLayers = m.basicLayers)
    (h : ∀ l, m'.at l i = m.at l i) : m'.isValid i = m.isValid i := by
  unfold isValid isValidLayers
  rw [hb]
  have : ∀ ls, m'.allValid i ls = m.allValid i ls := by
    intro ls
    induction ls with
    | nil => rfl
    | cons l ls ih => simp only [allValid, h, ih]
  rw [this]

theorem getPosition_congr {m m' : CostMap K} (h : SameGeometry m m') (i : Idx) :
    m'.getPosition i = m.getPosition i := by
  simp only [getPosition, h.length, h.resolution, h.position, h.size, h.startIndex]

theorem getIndex_congr {m m' : CostMap K} (h : SameGeometry m m') (p : Vec K) : m'.getIndex p = m.getIndex p := by
  simp only [getIndex, h.length, h.resolution, h.position, h.size, h.startIndex]

/-! ## Writing several layers of one cell -/

theorem at_of_ne_exists {m m' : CostMap K} (h : SameShape m m') {l : String} (hl : m.exists l = true) :
    m'.exists l = true := by
  have := h.isSome l
  simp only [CostMap.exists] at hl ⊢
  rw [this, hl]

/-- Layers written one after the other: those for which `w` gives a value take it. -/
theorem forEach_layers {i : Idx} {w : String → Option Cost} {body : String → Act (CostMap K) Unit} :
    ∀ {ls : List String} {m : CostMap K}, m.Coherent → i.In m.size →
    (∀ l ∈ ls, ∀ s, body l s = match w l with | none => (.ok (), s) | some c => setAt l i c s) →
    (∀ l ∈ ls, m.exists l = true) →
    ∃ m', Act.forEach body ls m = (.ok (), m') ∧ SameShape m m' ∧ (∀ l j, j ≠ i → m'.at l j = m.at l j) ∧
      ∀ l, m'.at l i = match (if l ∈ ls then w l else none) with | none => m.at l i | some c => .ok c
  | [], m, _, _, _, _ => ⟨m, rfl, SameShape.refl m, fun _ _ _ => rfl, fun l => by simp⟩
  | l :: ls, m, hc, hi, hb, he => by
    have step : ∃ m1, body l m = (.ok (), m1) ∧ SameShape m m1 ∧ (∀ l' j, j ≠ i → m1.at l' j = m.at l' j) ∧
        ∀ l', m1.at l' i = match (if l' = l then w l' else none) with | none => m.at l' i | some c => .ok c := by
      rw [hb l (by simp)]
      cases hw : w l with
      | none =>
        refine ⟨m, rfl, SameShape.refl m, fun _ _ _ => rfl, fun l' => ?_⟩
        by_cases h : l' = l
        · subst h; simp [hw]
        · simp [h]
      | some c =>
        obtain ⟨m1, e, hs, hat, -⟩ := setAt_spec hc (he l (by simp)) hi c
        refine ⟨m1, e, hs, ?_, ?_⟩
        · intro l' j hj; rw [hat, if_neg (fun h => hj h.2)]
        · intro l'
          rw [hat]
          by_cases h : l' = l
          · subst h; simp [hw]
          · simp [h]
    obtain ⟨m1, e1, hs1, ho1, hat1⟩ := step
    obtain ⟨m2, e2, hs2, ho2, hat2⟩ := forEach_layers (ls := ls) (w := w) (hs1.coherent hc) (by rw [hs1.geo.size]; exact hi)
      (fun l' hl' => hb l' (by simp [hl'])) (fun l' hl' => at_of_ne_exists hs1 (he l' (by simp [hl'])))
    refine ⟨m2, ?_, hs1.trans hs2, ?_, ?_⟩
    · simp only [Act.forEach, Act.bind, e1]; exact e2
    · intro l' j hj; rw [ho2 l' j hj, ho1 l' j hj]
    · intro l'
      rw [hat2, hat1]
      by_cases h1 : l' ∈ ls <;> by_cases h2 : l' = l
      · subst h2; simp only [h1, if_true, List.mem_cons, true_or]
        cases w l' <;> rfl
      · simp only [h1, h2, if_true, if_false, List.mem_cons, or_true]
      · subst h2; simp only [h1, if_false, if_true, List.mem_cons, true_or]
      · simp only [h1, h2, if_false, List.mem_cons, or_false]

/-! ## The bodies of the two loops -/

/-- The cost of layer `l` at position `p` of `other`, if `p` is inside and the cost is valid. -/
def validAt (other : CostMap K) (p : Vec K) (l : String) : Option Cost :=
  match other.atPosition l p with
  | .ok c => if c = NO_INFORMATION then none else some c
  | _ => none

theorem atPosition_inside {m : CostMap K} {p : Vec K} (hp : m.isInside p = true) (l : String) :
    m.atPosition l p = m.at l (m.getIndex p).1 := by
  simp only [atPosition, getIndex_snd, hp, if_true]

theorem atPosition_outside {m : CostMap K} {p : Vec K} (hp : m.isInside p = false) (l : String) :
    m.atPosition l p = .thrown .outOfRange := by
  simp only [atPosition, getIndex_snd, hp, Bool.false_eq_true, if_false]

theorem getIndex_in {m : CostMap K} (h : m.Geo) {p : Vec K} (hp : m.isInside p = true) :
    (m.getIndex p).1.In m.size := by
  rw [getIndex_fst h hp]
  exact bufferIdx_in ((isInside_iff h p).mp hp) h.start

theorem mergeLayer_eq {other : CostMap K} (h : other.Geo) (hc : other.Coherent) {p : Vec K}
    (hp : other.isInside p = true) (i : Idx) {l : String} (hl : other.exists l = true) (s : CostMap K) :
    mergeLayer other i (other.getIndex p).1 l s =
      match validAt other p l with | none => (.ok (), s) | some c => setAt l i c s := by
  obtain ⟨c, e⟩ := hc.at_ok hl (getIndex_in h hp)
  unfold mergeLayer validAt
  rw [atPosition_inside hp, e]
  by_cases hn : c = NO_INFORMATION
  · simp [Act.bind, Act.lift, isValidLayer, e, hn, Res.map, Act.pure]
  · simp [Act.bind, Act.lift, isValidLayer, e, hn, Res.map]

open Classical in
theorem mergeCell_spec {other : CostMap K} (hog : other.Geo) (hoc : other.Coherent) (ow : Bool) {ls : List String}
    (hls : ∀ l ∈ ls, other.exists l = true) {m : CostMap K} (hc : m.Coherent)
    (hb : ∀ l ∈ m.basicLayers, m.exists l = true) (hex : ∀ l ∈ ls, m.exists l = true) {i : Idx} (hi : i.In m.size)
    {p : Vec K} (hp : m.getPosition i = some p) :
    ∃ m', mergeCell other ow ls i m = (.ok (), m') ∧ SameShape m m' ∧ (∀ l j, j ≠ i → m'.at l j = m.at l j) ∧
      ∀ l, m'.at l i =
        match (if l ∈ ls ∧ (ow = true ∨ ¬ m.ValidCell i) then validAt other p l else none) with
        | none => m.at l i | some c => .ok c := by
  obtain ⟨b, hv, hv'⟩ := isValid_eq (i := i) (fun l hl => hc.at_ok (hb l hl) hi)
  have hv' : b = true ↔ m.ValidCell i := hv'
  unfold mergeCell
  have e0 : (Act.read fun m : CostMap K => m.isValid i) m = (.ok b, m) := by simp [Act.read, hv]
  rw [Act.bind_ok e0]
  by_cases hskip : (b && !ow) = true
  · rw [if_pos hskip]
    refine ⟨m, rfl, SameShape.refl m, fun _ _ _ => rfl, fun l => ?_⟩
    simp only [Bool.and_eq_true, Bool.not_eq_true'] at hskip
    have : ¬ (ow = true ∨ ¬ m.ValidCell i) := by
      rw [hskip.2, ← hv', hskip.1]; simp
    simp [this]
  · rw [if_neg hskip]
    have hov : ow = true ∨ ¬ m.ValidCell i := by
      rw [← hv']
      cases b <;> cases ow <;> simp_all
    simp only [hp]
    by_cases hin : other.isInside p = true
    · simp only [hin, Bool.not_true, Bool.false_eq_true, if_false]
      obtain ⟨m', e, hs, ho, hat⟩ := forEach_layers (w := validAt other p) hc hi
        (fun l hl s => mergeLayer_eq hog hoc hin i (hls l hl) s) hex
      refine ⟨m', e, hs, ho, fun l => ?_⟩
      rw [hat]
      simp [hov]
    · rw [Bool.not_eq_true] at hin
      simp only [hin, Bool.not_false, if_true]
      refine ⟨m, rfl, SameShape.refl m, fun _ _ _ => rfl, fun l => ?_⟩
      have : validAt other p l = none := by
        simp [validAt, atPosition_outside hin]
      simp [this]

/-! ## Adding missing layers -/

theorem addMissing_keeps (l : String) : Act.Keeps (CostMap.Coherent (K := K)) (addMissing l) := by
  intro m hc
  unfold addMissing
  split
  · exact hc
  · exact addConst_coherent _ _ _ hc

/-- After the loop that adds missing layers. -/
theorem addMissing_spec : ∀ (ls : List String) {m : CostMap K}, m.Coherent → 0 ≤ m.size.x → 0 ≤ m.size.y →
    ∃ m', Act.forEach addMissing ls m = (.ok (), m') ∧ m'.Coherent ∧ SameGeometry m m' ∧ SameMeta m m' ∧
      (∀ l, m'.exists l = true ↔ m.exists l = true ∨ l ∈ ls) ∧
      (∀ l i, m.exists l = true → m'.at l i = m.at l i) ∧
      (∀ l i, m.exists l = false → l ∈ ls → i.In m.size → m'.at l i = .ok NO_INFORMATION) ∧
      ∀ l i, m.exists l = false → l ∉ ls → m'.at l i = .thrown .outOfRange
  | [], m, hc, _, _ => ⟨m, rfl, hc, ⟨rfl, rfl, rfl, rfl, rfl⟩, ⟨rfl, rfl, rfl⟩, by simp, fun _ _ _ => rfl,
      fun _ _ _ h => by simp at h, fun l i h _ => at_none (exists_false_iff.mp h) i⟩
  | l :: ls, m, hc, hx, hy => by
    have step : ∃ m1, addMissing l m = (.ok (), m1) ∧ m1.Coherent ∧ SameGeometry m m1 ∧ SameMeta m m1 ∧
        (∀ l', m1.exists l' = true ↔ m.exists l' = true ∨ l' = l) ∧
        (∀ l' i, m.exists l' = true → m1.at l' i = m.at l' i) ∧
        (∀ i, m.exists l = false → i.In m.size → m1.at l i = .ok NO_INFORMATION) := by
      by_cases hl : l ∈ m.layers
      · have he : m.exists l = true := (hc.mem_iff l).mp hl
        refine ⟨m, by simp [addMissing, hl], hc, ⟨rfl, rfl, rfl, rfl, rfl⟩, ⟨rfl, rfl, rfl⟩, ?_, fun _ _ _ => rfl, ?_⟩
        · intro l'
          constructor
          · exact Or.inl
          · rintro (h | rfl)
            · exact h
            · exact he
        · intro i h; rw [he] at h; cases h
      · have he : m.exists l = false := by
          rw [Bool.eq_false_iff]; exact fun h => hl ((hc.mem_iff l).mpr h)
        have h0 := addMissing_keeps l m hc
        have e : addMissing l m = (.ok (), { m.setData l (Mat.const m.size.x.toNat m.size.y.toNat NO_INFORMATION) with
            layers := m.layers ++ [l] }) := by
          simp only [addMissing, hl, if_false, addConst, add, Mat.rows_const, Mat.cols_const]
          rw [if_neg (by omega), if_neg (by omega), if_neg (by simp [he])]
        rw [e] at h0
        refine ⟨_, e, h0, ⟨rfl, rfl, rfl, rfl, rfl⟩, ⟨rfl, rfl, rfl⟩, ?_, ?_, ?_⟩
        · intro l'
          by_cases h : l' = l
          · simp [CostMap.exists, setData, h]
          · simp [CostMap.exists, setData, h]
        · intro l' i h'
          have : l' ≠ l := fun h => by rw [h, he] at h'; cases h'
          exact at_congr (by simp [setData, this]) i
        · intro i _ hi
          obtain ⟨a, b, c, d⟩ := hi
          rw [at_eq (a := Mat.const m.size.x.toNat m.size.y.toNat NO_INFORMATION) (by simp [setData])]
          rw [Mat.get?_const, if_pos (by omega)]
          rfl
    obtain ⟨m1, e1, hc1, hg1, hm1, hx1, ha1, hn1⟩ := step
    obtain ⟨m2, e2, hc2, hg2, hm2, hx2, ha2, hn2, ht2⟩ := addMissing_spec ls hc1 (by rw [hg1.size]; exact hx)
      (by rw [hg1.size]; exact hy)
    refine ⟨m2, ?_, hc2, ⟨hg2.length.trans hg1.length, hg2.resolution.trans hg1.resolution,
      hg2.position.trans hg1.position, hg2.size.trans hg1.size, hg2.startIndex.trans hg1.startIndex⟩,
      ⟨hm2.frameId.trans hm1.frameId, hm2.timestamp.trans hm1.timestamp, hm2.basicLayers.trans hm1.basicLayers⟩,
      ?_, ?_, ?_, ?_⟩
    · simp only [Act.forEach, Act.bind, e1]; exact e2
    · intro l'
      rw [hx2, hx1, List.mem_cons]
      tauto
    · intro l' i h
      rw [ha2 l' i ((hx1 l').mpr (Or.inl h)), ha1 l' i h]
    · intro l' i h hmem hi
      by_cases hl : l' = l
      · subst hl
        rw [ha2 l' i ((hx1 l').mpr (Or.inr rfl)), hn1 i h hi]
      · refine hn2 l' i ?_ ((List.mem_cons.mp hmem).resolve_left hl) (by rw [hg1.size]; exact hi)
        rw [Bool.eq_false_iff, Ne, hx1]
        simp [h, hl]
    · intro l' i h hmem
      rw [List.mem_cons, not_or] at hmem
      refine ht2 l' i ?_ hmem.2
      rw [Bool.eq_false_iff, Ne, hx1]
      simp [h, hmem.1]

/-! ## addDataFrom -/

theorem SameGeometry.geo {m m' : CostMap K} (h : SameGeometry m m') (hg : m.Geo) : m'.Geo where
  res_pos := by rw [h.resolution]; exact hg.res_pos
  size_x := by rw [h.size]; exact hg.size_x
  size_y := by rw [h.size]; exact hg.size_y
  len_x := by rw [h.length, h.size, h.resolution]; exact hg.len_x
  len_y := by rw [h.length, h.size, h.resolution]; exact hg.len_y
  start := by rw [h.startIndex, h.size]; exact hg.start

open Classical in
theorem mergeCells_spec {other : CostMap K} (hog : other.Geo) (hoc : other.Coherent) (ow : Bool) {ls : List String}
    (hls : ∀ l ∈ ls, other.exists l = true) {m : CostMap K} (hg : m.Geo) (hc : m.Coherent)
    (hb : ∀ l ∈ m.basicLayers, m.exists l = true) (hex : ∀ l ∈ ls, m.exists l = true) :
    ∃ m', forCells (mergeCell other ow ls) m = (.ok (), m') ∧ SameShape m m' ∧
      ∀ l i p, m.getPosition i = some p → m'.at l i =
        match (if l ∈ ls ∧ (ow = true ∨ ¬ m.ValidCell i) then validAt other p l else none) with
        | none => m.at l i | some c => .ok c := by
  rw [forCells_eq hg.start]
  let new : String → Idx → Res Cost := fun l i => match m.getPosition i with
    | none => .ub
    | some p =>
        match (if l ∈ ls ∧ (ow = true ∨ ¬ m.ValidCell i) then validAt other p l else none) with
        | none => m.at l i | some c => .ok c
  obtain ⟨m', e, hs, -, hat⟩ := forEach_cells (new := new) (body := mergeCell other ow ls) (m₀ := m)
    (cells_nodup hg.start) (by
      intro i hi s hsh heq
      have hi := (mem_cells hg.start).mp hi
      have hp := getPosition_eq (m := m) hi
      have hvc : s.ValidCell i ↔ m.ValidCell i := by
        unfold ValidCell; rw [hsh.info.basicLayers]; simp only [heq]
      obtain ⟨s', e, h1, h2, h3⟩ := mergeCell_spec hog hoc ow hls (hsh.coherent hc)
        (fun l hl => at_of_ne_exists hsh (hb l (by rw [← hsh.info.basicLayers]; exact hl)))
        (fun l hl => at_of_ne_exists hsh (hex l hl)) (i := i) (by rw [hsh.geo.size]; exact hi)
        ((getPosition_congr hsh.geo i).trans hp)
      refine ⟨s', e, h1, h2, fun l => ?_⟩
      rw [h3]
      simp only [new, hp, hvc, heq]) (SameShape.refl m) (fun _ _ _ => rfl)
  refine ⟨m', e, hs, ?_⟩
  intro l i p hp
  have hi : i.In m.size := by
    by_contra h
    rw [getPosition_none h] at hp; cases hp
  rw [hat l i ((mem_cells hg.start).mpr hi)]
  simp only [new, hp]

end CostMap
end CostMapModel

import Verif.Lemmas.Access
import Verif.Spec.Move

/-! # What `move` does to the cells of the buffer -/

set_option linter.unusedSectionVars false

namespace CostMapModel

theorem emod_sub_eq_unw {k n s : Int} (hk : 0 ≤ k) (hk' : k < n) (hs : 0 ≤ s) (hs' : s < n) :
    (k - s) % n = unw k n s := by
  have := wrap1_eq (i := k - s) (n := n) (by omega) (by omega)
  unfold wrap1 at this
  have e : (k - s) % n = (k - s).emod n := rfl
  rw [e, this]
  unfold unw
  split <;> split <;> (try split) <;> omega

namespace CostMap
variable {K : Type} [Field K] [LinearOrder K] [IsStrictOrderedRing K] [FloorRing K]

/-- `m'` is `m` with the cells of `S` set to `NO_INFORMATION`. -/
structure Erases (m m' : CostMap K) (S : String → Idx → Prop) : Prop where
  shape : SameShape m m'
  erased : ∀ l i, S l i → m.exists l = true → i.In m.size → m'.at l i = .ok NO_INFORMATION
  kept : ∀ l i, ¬ S l i → m'.at l i = m.at l i

theorem Erases.refl (m : CostMap K) {S : String → Idx → Prop} (h : ∀ l i, i.In m.size → ¬ S l i) :
    Erases m m S := ⟨SameShape.refl m, fun l i hs _ hi => absurd hs (h l i hi), fun _ _ _ => rfl⟩

theorem Erases.exists {m m' : CostMap K} {S : String → Idx → Prop} (h : Erases m m' S) (l : String) :
    m'.exists l = m.exists l := h.shape.isSome l

theorem Erases.trans {a b c : CostMap K} {S T : String → Idx → Prop} (h : Erases a b S) (h' : Erases b c T) :
    Erases a c (fun l i => S l i ∨ T l i) where
  shape := h.shape.trans h'.shape
  erased l i hs he hi := by
    by_cases ht : T l i
    · exact h'.erased l i ht (by rw [h.exists]; exact he) (by rw [h.shape.geo.size]; exact hi)
    · rw [h'.kept l i ht]
      exact h.erased l i (hs.resolve_right ht) he hi
  kept l i hs := by
    push Not at hs
    rw [h'.kept l i hs.2, h.kept l i hs.1]

theorem Erases.at_out {m m' : CostMap K} (hc : m.Coherent) {S : String → Idx → Prop} (h : Erases m m' S)
    (l : String) {i : Idx} (hi : ¬ i.In m.size) : m'.at l i = m.at l i := by
  have hc' := h.shape.coherent hc
  by_cases he : m.exists l = true
  · rw [hc.at_ub he hi, hc'.at_ub (by rw [h.exists]; exact he) (by rw [h.shape.geo.size]; exact hi)]
  · have he : m.exists l = false := by simpa using he
    rw [at_none (exists_false_iff.mp he), at_none (exists_false_iff.mp (by rw [h.exists]; exact he))]

theorem Erases.congr {m m' : CostMap K} (hc : m.Coherent) {S T : String → Idx → Prop} (h : Erases m m' S)
    (e : ∀ l i, i.In m.size → (S l i ↔ T l i)) : Erases m m' T where
  shape := h.shape
  erased l i ht he hi := h.erased l i ((e l i hi).mpr ht) he hi
  kept l i ht := by
    by_cases hi : i.In m.size
    · exact h.kept l i (fun hs => ht ((e l i hi).mp hs))
    · exact h.at_out hc l hi

theorem clearAll_erases {m : CostMap K} (hc : m.Coherent) : Erases m m.clearAll (fun _ _ => True) where
  shape := SameShape.clearAll m
  erased l i _ he hi := by
    obtain ⟨a, ha⟩ := exists_iff.mp he
    obtain ⟨c, h⟩ := a.exists_get? ((hc.inRange ha i).mpr hi)
    have : m.clearAll.data l = some (a.setConstant NO_INFORMATION) := by simp [clearAll, ha]
    rw [at_eq this, Mat.get?_setConstant, h]; rfl
  kept l i hs := absurd trivial hs

theorem clearBlock_erases {m : CostMap K} (hc : m.Coherent) {l : String} (hl : m.exists l = true)
    {i j r c : Int} (h1 : 0 ≤ i) (h2 : 0 ≤ j) (h3 : 0 ≤ r) (h4 : 0 ≤ c) (h5 : i + r ≤ m.size.x)
    (h6 : j + c ≤ m.size.y) :
    ∃ m', clearBlock i j r c l m = (.ok (), m') ∧
      Erases m m' (fun l' k => l' = l ∧ (i ≤ k.x ∧ k.x < i + r ∧ j ≤ k.y ∧ k.y < j + c)) := by
  obtain ⟨a, ha⟩ := exists_iff.mp hl
  obtain ⟨d1, d2⟩ := hc.dims l a ha
  have hb : setBlockConstant a i j r c NO_INFORMATION = some (a.mapIdx fun i' j' c' =>
      if i ≤ i' ∧ i' < i + r ∧ j ≤ j' ∧ j' < j + c then NO_INFORMATION else c') := by
    unfold setBlockConstant
    rw [if_pos (by rw [d1, d2]; exact ⟨h1, h2, h3, h4, h5, h6⟩)]
  have he : clearBlock i j r c l m = (.ok (), m.setData l (a.mapIdx fun i' j' c' =>
      if i ≤ i' ∧ i' < i + r ∧ j ≤ j' ∧ j' < j + c then NO_INFORMATION else c')) := by
    simp only [clearBlock, ha, hb]
  refine ⟨_, he, SameShape.setData ha rfl rfl, ?_, ?_⟩
  · rintro l' k ⟨rfl, hk⟩ - hin
    obtain ⟨v, hv⟩ := a.exists_get? ((hc.inRange ha k).mpr hin)
    rw [at_setData, if_pos rfl, Mat.get?_mapIdx, hv]
    simp [hk]
  · intro l' k hk
    rw [at_setData]
    by_cases e : l' = l
    · subst e
      have hk' : ¬ (i ≤ k.x ∧ k.x < i + r ∧ j ≤ k.y ∧ k.y < j + c) := fun h => hk ⟨rfl, h⟩
      rw [if_pos rfl, Mat.get?_mapIdx, at_eq ha]
      simp [hk']
    · rw [if_neg e]

theorem clearBlocks_erases {i j r c : Int} (h1 : 0 ≤ i) (h2 : 0 ≤ j) (h3 : 0 ≤ r) (h4 : 0 ≤ c)
    (ls : List String) : ∀ {m : CostMap K}, m.Coherent → i + r ≤ m.size.x → j + c ≤ m.size.y →
    (∀ l ∈ ls, m.exists l = true) →
    ∃ m', Act.forEach (clearBlock i j r c) ls m = (.ok (), m') ∧
      Erases m m' (fun l' k => l' ∈ ls ∧ (i ≤ k.x ∧ k.x < i + r ∧ j ≤ k.y ∧ k.y < j + c)) := by
  induction ls with
  | nil =>
    intro m hc _ _ _
    exact ⟨m, rfl, Erases.refl m (by simp)⟩
  | cons l ls ih =>
    intro m hc h5 h6 hl
    obtain ⟨m1, e1, er1⟩ := clearBlock_erases hc (hl l (by simp)) h1 h2 h3 h4 h5 h6
    obtain ⟨m2, e2, er2⟩ := ih (er1.shape.coherent hc) (by rw [er1.shape.geo.size]; exact h5)
      (by rw [er1.shape.geo.size]; exact h6) (fun l' h' => by rw [er1.exists]; exact hl l' (by simp [h']))
    refine ⟨m2, by simp only [Act.forEach, Act.bind, e1, e2], (er1.trans er2).congr hc ?_⟩
    intro l' k _
    simp only [List.mem_cons]
    tauto

theorem clearStrip_erases {m : CostMap K} (hc : m.Coherent) (hs : m.startIndex.In m.size)
    (hl : ∀ l ∈ m.layersToClear, m.exists l = true) (ax : Fin 2) {idx n : Int} (h1 : 0 ≤ idx) (h2 : 0 ≤ n)
    (h3 : idx + n ≤ comp m.size ax) :
    ∃ m', clearStrip ax idx n m = (.ok (), m') ∧
      Erases m m' (fun l i => l ∈ m.layersToClear ∧ idx ≤ comp i ax ∧ comp i ax < idx + n) := by
  have hx : 0 < m.size.x := by obtain ⟨a, b, -, -⟩ := hs; omega
  have hy : 0 < m.size.y := by obtain ⟨-, -, a, b⟩ := hs; omega
  unfold clearStrip
  by_cases hax : ax = 0
  · subst hax
    simp only [comp, if_true] at h3 ⊢
    obtain ⟨m', e, er⟩ := clearBlocks_erases h1 le_rfl h2 hy.le m.layersToClear hc h3 (by omega) hl
    refine ⟨m', e, er.congr hc ?_⟩
    rintro l i ⟨i1, i2, i3, i4⟩
    constructor
    · rintro ⟨a, b⟩; exact ⟨a, by omega, by omega⟩
    · rintro ⟨a, b⟩; exact ⟨a, by omega, by omega, by omega, by omega⟩
  · simp only [comp, if_neg hax] at h3 ⊢
    obtain ⟨m', e, er⟩ := clearBlocks_erases le_rfl h1 hx.le h2 m.layersToClear hc (by omega) h3 hl
    refine ⟨m', e, er.congr hc ?_⟩
    rintro l i ⟨i1, i2, i3, i4⟩
    constructor
    · rintro ⟨a, b⟩; exact ⟨a, by omega, by omega⟩
    · rintro ⟨a, b⟩; exact ⟨a, by omega, by omega, by omega, by omega⟩

theorem layersToClear_congr {m m' : CostMap K} (h : SameShape m m') : m'.layersToClear = m.layersToClear := by
  unfold layersToClear
  rw [h.info.basicLayers, h.layers]

theorem comp_zero (i : Idx) : comp i 0 = i.x := rfl
theorem comp_one (i : Idx) : comp i 1 = i.y := rfl

theorem comp_in {i size : Idx} (h : i.In size) (ax : Fin 2) : 0 ≤ comp i ax ∧ comp i ax < comp size ax := by
  obtain ⟨a, b, c, d⟩ := h
  unfold comp
  split <;> exact ⟨by assumption, by assumption⟩

theorem inRegion_strip {i size : Idx} (hi : i.In size) (ax : Fin 2) (idx n : Int) :
    InRegion (stripRegion ax idx n size) i ↔ idx ≤ comp i ax ∧ comp i ax < idx + n := by
  obtain ⟨a, b, c, d⟩ := hi
  unfold InRegion stripRegion comp
  split <;> simp only <;> constructor
  · rintro ⟨h1, h2⟩; exact h1
  · intro h; exact ⟨h, by omega, by omega⟩
  · rintro ⟨h1, h2⟩; exact h2
  · intro h; exact ⟨⟨by omega, by omega⟩, h⟩

theorem one_strip {k sz idx n : Int} (hk : 0 ≤ k) (h : idx + n ≤ sz) :
    (idx ≤ k ∧ k < idx + n) ↔ unw k sz idx < n := by
  unfold unw; split <;> omega

theorem two_strips {k sz idx n f1 f2 : Int} (hk : 0 ≤ k) (hk' : k < sz) (h : ¬ idx + n ≤ sz)
    (h1 : f1 = sz - idx) (h2 : f2 = n - f1) :
    ((idx ≤ k ∧ k < idx + f1) ∨ (0 ≤ k ∧ k < 0 + f2)) ↔ unw k sz idx < n := by
  unfold unw; split <;> omega

/-- The first buffer row or column that is dropped. -/
def dropIndex (bnd : Int → Int → Int) (start sz sh : Int) : Int := bnd (if 0 < sh then start else start + sh) sz

/-- The buffer rows or columns `k` that are dropped along an axis. -/
def Drops (bnd : Int → Int → Int) (start sz sh k : Int) : Prop :=
  sh ≠ 0 ∧ (sz ≤ |sh| ∨ (k - dropIndex bnd start sz sh) % sz < |sh|)

theorem SameShape.start {m m' : CostMap K} (h : SameShape m m') (hs : m.startIndex.In m.size) :
    m'.startIndex.In m'.size := by rw [h.geo.startIndex, h.geo.size]; exact hs

theorem dropAxis_spec {bnd : Int → Int → Int} (hb : ∀ i n, 0 < n → 0 ≤ bnd i n ∧ bnd i n < n)
    {m : CostMap K} (hc : m.Coherent) (hs : m.startIndex.In m.size) (shift : Idx) (ax : Fin 2)
    (hl : ∀ l ∈ m.layersToClear, m.exists l = true) :
    ∃ m' regs, dropAxis bnd shift ax m = (.ok regs, m') ∧
      Erases m m' (fun l i => (l ∈ m.layersToClear ∨ comp m.size ax ≤ |comp shift ax|) ∧
        Drops bnd (comp m.startIndex ax) (comp m.size ax) (comp shift ax) (comp i ax)) ∧
      ∀ i, i.In m.size → ((∃ r ∈ regs, InRegion r i) ↔
        Drops bnd (comp m.startIndex ax) (comp m.size ax) (comp shift ax) (comp i ax)) := by
  have hsz : 0 < comp m.size ax := by have := comp_in hs ax; omega
  unfold dropAxis
  extract_lets sh sz sign start stop n idx f1 f2
  have hidx : idx = dropIndex bnd (comp m.startIndex ax) sz sh := by
    simp only [idx, dropIndex]
    congr 1
    by_cases h : 0 < sh
    · have e : sign = 1 := by simp only [sign]; exact if_pos h
      rw [if_pos (show sign > 0 by omega), if_pos h]
      simp only [start]
      rw [if_neg (by omega)]; omega
    · have e : sign = -1 := by simp only [sign]; exact if_neg h
      rw [if_neg (show ¬ sign > 0 by omega), if_neg h]
      simp only [stop, start]
      rw [if_pos (show sign < 0 by omega)]; omega
  have hir := hb (if sign > 0 then start else stop) sz hsz
  change 0 ≤ idx ∧ idx < sz at hir
  split
  · rename_i hne
    split
    · rename_i hge
      refine ⟨_, _, rfl, (clearAll_erases hc).congr hc ?_, ?_⟩
      · intro l i _
        simp only [Drops, true_iff]
        exact ⟨Or.inr hge, hne, Or.inl hge⟩
      · intro i hi
        simp only [Drops]
        constructor
        · intro _; exact ⟨hne, Or.inl hge⟩
        · intro _
          obtain ⟨a, b, c, d⟩ := hi
          exact ⟨_, List.mem_singleton.mpr rfl, ⟨by simpa using a, by simpa using b⟩, by simpa using c, by simpa using d⟩
    · rename_i hlt
      have hlt : |sh| < sz := not_le.mp hlt
      have hn0 : 0 ≤ n := abs_nonneg sh
      have hn : n = |sh| := rfl
      have hdr : ∀ i : Idx, i.In m.size → (Drops bnd (comp m.startIndex ax) sz sh (comp i ax) ↔
          unw (comp i ax) sz idx < n) := by
        intro i hi
        have hk := comp_in hi ax
        unfold Drops
        rw [← hidx, emod_sub_eq_unw hk.1 hk.2 hir.1 hir.2]
        constructor
        · rintro ⟨-, h | h⟩
          · omega
          · exact h
        · intro h; exact ⟨hne, Or.inr h⟩
      have hncl : ¬ comp m.size ax ≤ |comp shift ax| := not_le.mpr hlt
      split
      · rename_i hone
        obtain ⟨m', e, er⟩ := clearStrip_erases hc hs hl ax hir.1 hn0 hone
        refine ⟨m', _, by simp only [Act.bind, e, Act.pure]; rfl, er.congr hc ?_, ?_⟩
        · intro l i hi
          have hk := comp_in hi ax
          rw [hdr i hi]
          rw [one_strip hk.1 hone, or_iff_left hncl]
        · intro i hi
          have hk := comp_in hi ax
          rw [hdr i hi]
          simp only [List.mem_singleton, exists_eq_left]
          rw [inRegion_strip hi]
          exact one_strip hk.1 hone
      · rename_i htwo
        have hf1 : f1 = sz - idx := rfl
        have hf2 : f2 = n - f1 := rfl
        obtain ⟨m1, e1, er1⟩ := clearStrip_erases hc hs hl ax hir.1 (n := f1) (by omega) (by omega)
        have hlc := layersToClear_congr er1.shape
        obtain ⟨m2, e2, er2⟩ := clearStrip_erases (er1.shape.coherent hc) (er1.shape.start hs)
          (by rw [hlc]; intro l h; rw [er1.exists]; exact hl l h) ax (idx := 0) (n := f2) le_rfl (by omega)
          (by rw [er1.shape.geo.size]; show 0 + f2 ≤ sz; omega)
        refine ⟨m2, _, by simp only [Act.bind, e1, e2, Act.pure]; rfl, (er1.trans er2).congr hc ?_, ?_⟩
        · intro l i hi
          have hk := comp_in hi ax
          rw [hdr i hi, hlc]
          rw [← two_strips hk.1 hk.2 htwo hf1 hf2, or_iff_left hncl, ← and_or_left]
        · intro i hi
          have hk := comp_in hi ax
          rw [hdr i hi]
          simp only [List.mem_cons, List.not_mem_nil, or_false, exists_eq_or_imp, exists_eq_left]
          rw [inRegion_strip hi, inRegion_strip hi]
          exact two_strips hk.1 hk.2 htwo hf1 hf2
  · rename_i he
    have he : sh = 0 := not_not.mp he
    refine ⟨m, [], rfl, Erases.refl m ?_, ?_⟩
    · rintro l i - ⟨-, h, -⟩; exact h he
    · intro i _
      simp only [List.not_mem_nil, false_and, exists_false, false_iff]
      rintro ⟨h, -⟩; exact h he

/-- The index shift of a move. -/
def shiftTo (m : CostMap K) (p : Vec K) : Idx := indexShift (p - m.position) m.resolution

/-- The layers a move clears. -/
def ClearedBy (m : CostMap K) (p : Vec K) (l : String) : Prop :=
  l ∈ m.layersToClear ∨ m.size.x ≤ |(m.shiftTo p).x| ∨ m.size.y ≤ |(m.shiftTo p).y|

/-- Dropping cells along both axes, for a given index shift. -/
theorem dropBoth_spec {bnd : Int → Int → Int} (hb : ∀ i n, 0 < n → 0 ≤ bnd i n ∧ bnd i n < n)
    {m : CostMap K} (hc : m.Coherent) (hs : m.startIndex.In m.size) (s : Idx)
    (hl : ∀ l ∈ m.layersToClear, m.exists l = true) :
    ∃ m1 m0 r0 r1, dropAxis bnd s 0 m = (.ok r0, m1) ∧ dropAxis bnd s 1 m1 = (.ok r1, m0) ∧
      Erases m m0 (fun l i =>
        ((l ∈ m.layersToClear ∨ m.size.x ≤ |s.x|) ∧ Drops bnd m.startIndex.x m.size.x s.x i.x) ∨
        ((l ∈ m.layersToClear ∨ m.size.y ≤ |s.y|) ∧ Drops bnd m.startIndex.y m.size.y s.y i.y)) ∧
      ∀ i, i.In m.size → ((∃ r ∈ r0 ++ r1, InRegion r i) ↔
        Drops bnd m.startIndex.x m.size.x s.x i.x ∨ Drops bnd m.startIndex.y m.size.y s.y i.y) := by
  obtain ⟨m1, r1, e1, er1, h1⟩ := dropAxis_spec hb hc hs s 0 hl
  have hlc := layersToClear_congr er1.shape
  obtain ⟨m2, r2, e2, er2, h2⟩ := dropAxis_spec hb (er1.shape.coherent hc) (er1.shape.start hs) s 1
    (by rw [hlc]; intro l h; rw [er1.exists]; exact hl l h)
  have g1 := er1.shape.geo
  rw [hlc, g1.size, g1.startIndex] at er2
  rw [g1.size, g1.startIndex] at h2
  simp only [comp_zero] at er1 h1
  simp only [comp_one] at er2 h2
  refine ⟨m1, m2, r1, r2, e1, e2, er1.trans er2, ?_⟩
  intro i hi
  rw [← h1 i hi, ← h2 i hi]
  constructor
  · rintro ⟨r, hr, hi⟩
    rcases List.mem_append.mp hr with h | h
    · exact Or.inl ⟨r, h, hi⟩
    · exact Or.inr ⟨r, h, hi⟩
  · rintro (⟨r, hr, hi⟩ | ⟨r, hr, hi⟩)
    · exact ⟨r, List.mem_append.mpr (Or.inl hr), hi⟩
    · exact ⟨r, List.mem_append.mpr (Or.inr hr), hi⟩

/-- Effect of `move` for any index bounding function that stays in the buffer: the state differs from an erased
copy of the old one only in centre and start index. -/
theorem moveWith_spec {bnd : Int → Int → Int} (hb : ∀ i n, 0 < n → 0 ≤ bnd i n ∧ bnd i n < n)
    {m : CostMap K} (hc : m.Coherent) (hg : m.Geo) (p : Vec K) (hl : ∀ l ∈ m.layersToClear, m.exists l = true) :
    ∃ m0 m' regs, moveWith bnd p m = (.ok (decide (m.shiftTo p ≠ 0), regs), m') ∧
      m' = { m0 with startIndex := bound2 bnd (m.startIndex + m.shiftTo p) m.size,
                     position := m.position + positionShift (m.shiftTo p) m.resolution } ∧
      Erases m m0 (fun l i =>
        ((l ∈ m.layersToClear ∨ m.size.x ≤ |(m.shiftTo p).x|) ∧
          Drops bnd m.startIndex.x m.size.x (m.shiftTo p).x i.x) ∨
        ((l ∈ m.layersToClear ∨ m.size.y ≤ |(m.shiftTo p).y|) ∧
          Drops bnd m.startIndex.y m.size.y (m.shiftTo p).y i.y)) ∧
      ∀ i, i.In m.size → ((∃ r ∈ regs, InRegion r i) ↔
        Drops bnd m.startIndex.x m.size.x (m.shiftTo p).x i.x ∨
        Drops bnd m.startIndex.y m.size.y (m.shiftTo p).y i.y) := by
  obtain ⟨m1, m2, r1, r2, e1, e2, er, h⟩ := dropBoth_spec hb hc hg.start (m.shiftTo p) hl
  have g := er.shape.geo
  refine ⟨m2, _, r1 ++ r2, ?_, rfl, er, h⟩
  unfold moveWith
  simp only [Act.bind]
  have e1' : dropAxis bnd (indexShift (p - m.position) m.resolution) 0 m = (.ok r1, m1) := e1
  have e2' : dropAxis bnd (indexShift (p - m.position) m.resolution) 1 m1 = (.ok r2, m2) := e2
  rw [e1']
  simp only
  rw [e2']
  simp only [g.startIndex, g.size, g.position]
  rfl

/-- With wrapping, the dropped cells are those whose logical index leaves the map. -/
theorem drops_wrap {start sz sh k : Int} (hs : 0 ≤ start) (hs' : start < sz) (hk : 0 ≤ k) (hk' : k < sz) :
    Drops wrap1 start sz sh k ↔ ¬ (0 ≤ unw k sz start - sh ∧ unw k sz start - sh < sz) := by
  have hu : 0 ≤ unw k sz start ∧ unw k sz start < sz := by unfold unw; split <;> omega
  unfold Drops
  by_cases h0 : sh = 0
  · subst h0; simp; omega
  by_cases hbig : sz ≤ |sh|
  · constructor
    · intro _ h
      rcases abs_cases sh with ⟨e, _⟩ | ⟨e, _⟩ <;> omega
    · intro _; exact ⟨h0, Or.inl hbig⟩
  · have hd : dropIndex wrap1 start sz sh = if 0 < sh then start else (if start + sh < 0 then start + sh + sz else start + sh) := by
      unfold dropIndex
      split
      · exact wrap1_of_in hs hs'
      · rw [wrap1_eq (by rcases abs_cases sh with ⟨e, _⟩ | ⟨e, _⟩ <;> omega) (by omega)]
        split <;> [rfl; (rw [if_pos (by omega)])]
    have hdr : 0 ≤ dropIndex wrap1 start sz sh ∧ dropIndex wrap1 start sz sh < sz :=
      wrap1_range (by omega)
    rw [emod_sub_eq_unw hk hk' hdr.1 hdr.2, hd]
    simp only [hbig, false_or, ne_eq, h0, not_false_eq_true, true_and]
    unfold unw at *
    rcases abs_cases sh with ⟨e, _⟩ | ⟨e, _⟩ <;> rw [e] at * <;> (split_ifs at * <;> omega)

end CostMap
end CostMapModel

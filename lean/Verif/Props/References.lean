import Verif.Lemmas.History
import Verif.Spec.References
import Verif.Props.Demo

/-!
# C106: references that are kept

A reference that `at` returned stays good, for the same layer and index, through every call but `erase` of its layer and those that
change the number of cells. The one `get` returned stays good until the layer is erased.
-/

set_option linter.unusedSectionVars false

namespace CostMapModel
open CostMap
open Act (Keeps)

section
variable {K : Type} [Field K] [LinearOrder K] [IsStrictOrderedRing K] [FloorRing K]

/-! ## What the calls do to layers and sizes -/

theorem hasLayer_stable (l : String) : Stable (fun m : CostMap K => m.exists l = true) where
  shape h hm := (h.isSome l).trans hm
  info _ h _ hm := by unfold CostMap.exists at *; rw [h]; exact hm
  add l' a m hm := by
    unfold add
    split
    · exact hm
    split
    · exact hm
    have : ((m.setData l' a).data l).isSome = true := by
      simp only [setData]
      split
      · rfl
      · exact hm
    split <;> exact this

theorem setGeometry_hasLayer (l : String) (len : Vec K) (r : K) (p : Vec K) :
    Keeps (fun m : CostMap K => m.exists l = true) (setGeometry len r p) := by
  intro m hm
  unfold setGeometry
  split
  · exact hm
  split
  · exact hm
  split
  · exact hm
  show (Option.map _ (Option.map _ (m.data l))).isSome = true
  rw [Option.isSome_map, Option.isSome_map]; exact hm

/-- C106. Only `erase` with its name removes a layer. -/
theorem C106_layers_stay (l : String) {c : Call K} (hne : c ≠ .erase l) {m : CostMap K} (hm : m.exists l = true) :
    (c.run m).2.exists l = true := by
  have st := hasLayer_stable (K := K) l
  have sg := setGeometry_hasLayer (K := K) l
  have se : ∀ o, Keeps (fun m : CostMap K => m.exists l = true) (extendToInclude o) := by
    intro o m hm
    unfold extendToInclude
    dsimp only
    split
    · exact ((sg _ _ _).bind fun _ => Keeps.bind (fun s hs => hs) fun _ =>
        (st.forCells (st.restoreCell m)).bind fun _ => Keeps.pure _) m hm
    · exact hm
  revert m
  show Keeps (fun m : CostMap K => m.exists l = true) c.run
  cases c with
  | setGeometry len r p => exact sg len r p
  | setBasicLayers ls => exact fun _ h => h
  | setTimestamp t => exact fun _ h => h
  | resetTimestamp => exact fun _ h => h
  | setFrameId f => exact fun _ h => h
  | setPosition p => exact fun _ h => h
  | setStartIndex i => exact fun _ h => h
  | add l a => exact st.add l a
  | addConst l v => exact st.addConst l v
  | erase l' =>
    refine Keeps.discard fun m hm => ?_
    have hn : l ≠ l' := fun h => hne (by rw [h])
    unfold erase
    split
    · exact hm
    dsimp only
    split
    · show (if l = l' then none else m.data l).isSome = true
      rw [if_neg hn]; exact hm
    · split
      all_goals
        show (if l = l' then none else m.data l).isSome = true
        rw [if_neg hn]; exact hm
  | setAt l i v => exact st.keeps (setAt_shape l i v)
  | setAtPosition l p v => exact st.keeps (setAtPosition_shape l p v)
  | clear l => exact st.keeps (clear_shape l)
  | clearBasic => exact st.keeps clearBasic_shape
  | clearAll => exact Keeps.modify fun m h => st.shape (SameShape.clearAll m) h
  | move p =>
    refine Keeps.discard fun m hm => ?_
    unfold move moveWith
    dsimp only
    exact Keeps.bind (P := fun m : CostMap K => m.exists l = true) (st.keeps (dropAxis_shape _ _ _))
      (fun _ => Keeps.bind (st.keeps (dropAxis_shape _ _ _)) fun _ s hs => hs) m hm
  | extendToInclude o => exact (se o).discard
  | addDataFrom o e w a ls => exact (st.addDataFrom se o e w a ls).discard
  | inflate obj pop hyp ls ld r f => intro m hm; exact Inflation.inflate_keeps st pop hyp r f ⟨obj, m, []⟩ hm
  | deflate k ls ld => exact st.deflate k ls ld
  | fromMessage msg =>
    refine Keeps.discard ?_
    unfold fromMessage
    refine Keeps.bind (Keeps.modify fun _ h => h) fun _ => (sg _ _ _).bind fun _ => Keeps.ite (Keeps.pure _) ?_
    exact (Keeps.forEach (fun _ => (Keeps.lift _).bind fun _ => st.add _ _) _).bind fun _ =>
      Keeps.bind (Keeps.modify fun _ h => h) fun _ => Keeps.pure _
  | addLayerFromImage cv img l => exact (st.addLayerFromImage cv img l).discard
  | fromImageBundle cv rf files =>
    exact (Keeps.lift _).bind fun _ => (sg _ _ _).bind fun _ => Keeps.bind (Keeps.modify fun _ h => h) fun _ =>
      Keeps.forEach (fun _ => (st.addLayerFromImage _ _ _).bind fun _ => Keeps.pure _) _
  | fromCostmap2DROS c l =>
    refine Keeps.discard (Keeps.bind (Keeps.bind (sg _ _ _) fun _ => ?_) fun _ => st.addFromCostmap2D _ _)
    exact fun s hs => hs
  | fromCostmap2DROSAtRobotPose c g l' =>
    refine Keeps.discard (Keeps.bind ?_ fun _ => Keeps.ite ((st.addAtRobotPose c l').bind fun _ => Keeps.pure _) (Keeps.pure _))
    unfold initAtRobotPose
    split
    · exact Keeps.pure _
    · exact Keeps.bind (Keeps.modify fun _ h => h) fun _ => (sg _ _ _).bind fun _ => Keeps.pure _

theorem sizeStays_stable (s : Idx) : Stable (fun m : CostMap K => m.size = s) where
  shape h hm := h.geo.size.trans hm
  info _ _ h hm := h.size.trans hm
  add l a m hm := (add_geometry l a m).size.trans hm

/-- C106. The calls that are meant to keep the number of cells do so. -/
theorem C106_size_stays {c : Call K} (hk : c.KeepsCells) (m : CostMap K) : (c.run m).2.size = m.size := by
  have st := sizeStays_stable (K := K) m.size
  have dis : ∀ {α : Type} {f : Act (CostMap K) α}, Keeps (fun s : CostMap K => s.size = m.size) f →
      (Call.discard f m).2.size = m.size := fun h => h.discard m rfl
  cases c with
  | setGeometry len r p => exact hk.elim
  | setBasicLayers ls => rfl
  | setTimestamp t => rfl
  | resetTimestamp => rfl
  | setFrameId f => rfl
  | setPosition p => rfl
  | setStartIndex i => rfl
  | add l a => exact st.add l a m rfl
  | addConst l v => exact st.addConst l v m rfl
  | erase l => exact dis fun s hs => (erase_geometry l s).size.trans hs
  | setAt l i v => exact st.keeps (setAt_shape l i v) m rfl
  | setAtPosition l p v => exact st.keeps (setAtPosition_shape l p v) m rfl
  | clear l => exact st.keeps (clear_shape l) m rfl
  | clearBasic => exact st.keeps clearBasic_shape m rfl
  | clearAll => rfl
  | move p =>
    refine dis fun s hs => ?_
    unfold move moveWith
    dsimp only
    exact Keeps.bind (P := fun s : CostMap K => s.size = m.size) (st.keeps (dropAxis_shape _ _ _))
      (fun _ => Keeps.bind (st.keeps (dropAxis_shape _ _ _)) fun _ s hs => hs) s hs
  | extendToInclude o => exact hk.elim
  | addDataFrom o e w a ls =>
    obtain rfl : e = false := hk
    refine dis ?_
    unfold addDataFrom
    exact (Keeps.pure _).bind fun _ => (Keeps.forEach st.addMissing _).bind fun _ =>
      (st.forCells (st.mergeCell o w _)).bind fun _ => Keeps.pure _
  | inflate obj pop hyp ls ld r f => exact Inflation.inflate_keeps st pop hyp r f ⟨obj, m, []⟩ rfl
  | deflate k ls ld => exact st.deflate k ls ld m rfl
  | fromMessage msg => exact hk.elim
  | addLayerFromImage cv img l => exact dis (st.addLayerFromImage cv img l)
  | fromImageBundle cv rf files => exact hk.elim
  | fromCostmap2DROS c l => exact hk.elim
  | fromCostmap2DROSAtRobotPose c g l => exact hk.elim

/-! ## Elements of arrays -/

theorem Mat.offset_inj {r i j i' j' : Int} (h1 : 0 ≤ i) (h2 : i < r) (h3 : 0 ≤ i') (h4 : i' < r) (h : j * r + i = j' * r + i') :
    i = i' ∧ j = j' := by
  have hr : r ≠ 0 := by omega
  have e : ∀ a b : Int, 0 ≤ b → b < r → (a * r + b) / r = a := fun a b hb hb' => by
    rw [Int.add_comm, Int.add_mul_ediv_right _ _ hr, Int.ediv_eq_zero_of_lt hb hb', Int.zero_add]
  have hj : j = j' := by rw [← e j i h1 h2, h, e j' i' h3 h4]
  subst hj
  exact ⟨by omega, rfl⟩

theorem Mat.offset_lt {r c i j : Int} (h1 : 0 ≤ i) (h2 : i < r) (h3 : 0 ≤ j) (h4 : j < c) :
    0 ≤ j * r + i ∧ j * r + i < r * c := by
  have : 0 ≤ j * r := Int.mul_nonneg h3 (by omega)
  have h5 : (j + 1) * r ≤ c * r := Int.mul_le_mul_of_nonneg_right (by omega) (by omega)
  refine ⟨by omega, ?_⟩
  rw [Int.add_mul, Int.one_mul] at h5
  rw [Int.mul_comm r c]
  omega

theorem Mat.set_offset {a : Mat Cost} {i j : Int} (h : a.InRange i j) (v : Cost) :
    a.set i j v = ⟨a.rows, a.cols, a.data.set (j * a.rows + i).toNat v, by simp [a.size_eq]⟩ := by
  refine Mat.ext' rfl rfl fun i' j' => ?_
  rw [Mat.get?_set]
  have hl : ∀ b : Mat Cost, b.rows = a.rows → b.cols = a.cols → (b.InRange i' j' ↔ a.InRange i' j') := by
    intro b h1 h2; unfold Mat.InRange; rw [h1, h2]
  by_cases hr : a.InRange i' j'
  · have e1 : Mat.get? ⟨a.rows, a.cols, a.data.set (j * a.rows + i).toNat v, by simp [a.size_eq]⟩ i' j' =
        (a.data.set (j * a.rows + i).toNat v)[(j' * a.rows + i').toNat]? := by
      unfold Mat.get?
      exact if_pos ((hl ⟨a.rows, a.cols, a.data.set (j * a.rows + i).toNat v, by simp [a.size_eq]⟩ rfl rfl).mpr hr)
    have e2 : a.get? i' j' = a.data[(j' * a.rows + i').toNat]? := by unfold Mat.get?; rw [if_pos hr]
    rw [e1, List.getElem?_set]
    obtain ⟨h1, h2, h3, h4⟩ := h
    obtain ⟨g1, g2, g3, g4⟩ := hr
    have o1 := Mat.offset_lt h1 h2 h3 h4
    have o2 := Mat.offset_lt g1 g2 g3 g4
    have hlen : ((j * a.rows + i).toNat : Int) < a.data.length := by
      rw [a.size_eq]; push_cast; omega
    by_cases he : i' = i ∧ j' = j
    · obtain ⟨rfl, rfl⟩ := he
      simp only [and_self, if_true]
      have hlen' : (j' * a.rows + i').toNat < a.data.length := by exact_mod_cast hlen
      rw [if_pos hlen', e2, List.getElem?_eq_getElem hlen']; rfl
    · rw [if_neg he, if_neg, e2]
      intro ht
      have : j * a.rows + i = j' * a.rows + i' := by omega
      obtain ⟨rfl, rfl⟩ := Mat.offset_inj h1 h2 g1 g2 this
      exact he ⟨rfl, rfl⟩
  · have hx : ¬ (i' = i ∧ j' = j) := by rintro ⟨rfl, rfl⟩; exact hr h
    rw [if_neg hx]
    unfold Mat.get?
    rw [if_neg hr]
    exact (if_neg (fun h => hr ((hl ⟨a.rows, a.cols, a.data.set (j * a.rows + i).toNat v, by simp [a.size_eq]⟩ rfl rfl).mp h))).symm

namespace InMemory

theorem refer_ok {s : InMemory K} {l : String} {i : Idx} {r : CellRef} (h : s.refer l i = .ok r) :
    ∃ a, s.map.data l = some a ∧ a.InRange i.x i.y ∧ r = ⟨l, s.array l, (i.y * a.rows + i.x).toNat⟩ := by
  unfold refer at h
  split at h
  · cases h
  · rename_i a ha
    split at h
    · rename_i hr
      cases h
      exact ⟨a, ha, hr, rfl⟩
    · cases h

/-- A reference that `at` would return now reads and writes as `at` does. -/
theorem refer_use {s : InMemory K} {l : String} {i : Idx} {r : CellRef} (h : s.refer l i = .ok r) :
    s.load r = s.map.at l i ∧ ∀ v, store r v s = ((setAt l i v s.map).1, { s with map := (setAt l i v s.map).2 }) := by
  obtain ⟨a, ha, hr, rfl⟩ := refer_ok h
  have hlt : (i.y * a.rows + i.x).toNat < a.data.length := by
    obtain ⟨h1, h2, h3, h4⟩ := hr
    have := Mat.offset_lt h1 h2 h3 h4
    rw [a.size_eq]
    have : ((i.y * a.rows + i.x).toNat : Int) < ((a.rows * a.cols : Nat) : Int) := by push_cast; omega
    exact_mod_cast this
  constructor
  · unfold load
    simp only [ha, if_true, at_eq ha]
    unfold Mat.get?
    rw [if_pos hr]
  · intro v
    unfold store
    simp only [ha, true_and, hlt, if_true]
    rw [setAt_eq ha hr, Mat.set_offset hr]

theorem refer_exists {s : InMemory K} (hc : s.map.Coherent) {l : String} (hl : s.map.exists l = true) {i : Idx}
    (hi : i.In s.map.size) : ∃ r, s.refer l i = .ok r := by
  obtain ⟨a, ha⟩ := exists_iff.mp hl
  unfold refer
  rw [ha]
  simp only
  rw [if_pos ((hc.inRange ha i).mpr hi)]
  exact ⟨_, rfl⟩

theorem referMatrix_exists {s : InMemory K} {l : String} (hl : s.map.exists l = true) : ∃ r, s.referMatrix l = .ok r := by
  obtain ⟨a, ha⟩ := exists_iff.mp hl
  unfold referMatrix
  rw [ha]
  exact ⟨_, rfl⟩

/-- What is known of a state in which a reference is still good. -/
structure Good (l : String) (i : Idx) (s0 : Idx) (r : CellRef) (t : InMemory K) : Prop where
  coherent : t.map.Coherent
  has : t.map.exists l = true
  layer : r.layer = l
  array : t.array l = r.array
  offset : (r.offset : Int) = i.y * s0.x + i.x
  fits : (r.offset : Int) < t.map.size.x * t.map.size.y

theorem Good.of_refer {s : InMemory K} (hc : s.map.Coherent) {l : String} {i : Idx} {r : CellRef} (h : s.refer l i = .ok r) :
    Good l i s.map.size r s := by
  obtain ⟨a, ha, ⟨h1, h2, h3, h4⟩, rfl⟩ := refer_ok h
  have hd := hc.dims l a ha
  have := Mat.offset_lt h1 h2 h3 h4
  refine ⟨hc, exists_iff.mpr ⟨a, ha⟩, rfl, rfl, ?_, ?_⟩
  · rw [← hd.1]; show ((i.y * a.rows + i.x).toNat : Int) = _; omega
  · rw [← hd.1, ← hd.2]; show ((i.y * a.rows + i.x).toNat : Int) < _; omega

theorem Good.refer {t : InMemory K} {l : String} {i s0 : Idx} {r : CellRef} (g : Good l i s0 r t) {j : Idx} (hj : j.In t.map.size)
    (e : j.y * t.map.size.x + j.x = i.y * s0.x + i.x) : t.refer l j = .ok r := by
  obtain ⟨a, ha⟩ := exists_iff.mp g.has
  have hd := g.coherent.dims l a ha
  unfold InMemory.refer
  rw [ha]
  simp only
  rw [if_pos ((g.coherent.inRange ha j).mpr hj), g.array, hd.1, e, ← g.offset]
  rw [← g.layer]; simp

theorem sameArray_of {m m' : CostMap K} (hc : m.Coherent) (hc' : m'.Coherent) {l : String} (h : m.exists l = true)
    (h' : m'.exists l = true) : m.sameArray m' l = decide (m'.size.x * m'.size.y = m.size.x * m.size.y) := by
  obtain ⟨a, ha⟩ := exists_iff.mp h
  obtain ⟨b, hb⟩ := exists_iff.mp h'
  have hd := hc.dims l a ha
  have hd' := hc'.dims l b hb
  unfold CostMap.sameArray
  rw [ha, hb]
  simp only [← hd.1, ← hd.2, ← hd'.1, ← hd'.2, decide_eq_decide]
  constructor
  · intro h; exact_mod_cast h.symm
  · intro h; exact_mod_cast h.symm

theorem Good.call {t : InMemory K} {l : String} {i s0 : Idx} {r : CellRef} (g : Good l i s0 r t) {c : Call K} (hne : c ≠ .erase l)
    (hs : (InMemory.call c t).2.map.size.x * (InMemory.call c t).2.map.size.y = t.map.size.x * t.map.size.y) :
    Good l i s0 r (InMemory.call c t).2 := by
  have h1 : (InMemory.call c t).2.map.Coherent := call_coherent c t.map g.coherent
  have h2 : (InMemory.call c t).2.map.exists l = true := C106_layers_stay l hne g.has
  refine ⟨h1, h2, g.layer, ?_, g.offset, by rw [hs]; exact g.fits⟩
  show (if t.map.sameArray (c.run t.map).2 l then t.array l else t.clock + 1) = _
  have : t.map.sameArray (c.run t.map).2 l = true := by
    exact (sameArray_of g.coherent h1 g.has h2).trans (decide_eq_true hs)
  rw [this, if_pos rfl, g.array]

theorem store_shape {t u : InMemory K} {r : CellRef} {v : Cost} (h : store r v t = (.ok (), u)) :
    SameShape t.map u.map ∧ u.clock = t.clock ∧ u.array = t.array ∧ u.node = t.node := by
  unfold store at h
  split at h
  · cases h
  · rename_i a ha
    split at h
    · cases h
      exact ⟨SameShape.setData ha rfl rfl, rfl, rfl, rfl⟩
    · cases h

theorem Good.store {t u : InMemory K} {l : String} {i s0 : Idx} {r : CellRef} (g : Good l i s0 r t) {r' : CellRef} {v : Cost}
    (h : InMemory.store r' v t = (.ok (), u)) : Good l i s0 r u := by
  obtain ⟨h1, -, h3, -⟩ := store_shape h
  exact ⟨h1.coherent g.coherent, (h1.isSome l).trans g.has, g.layer, by rw [h3]; exact g.array, g.offset,
    by rw [h1.geo.size]; exact g.fits⟩

theorem Good.later {s t : InMemory K} {l : String} {i : Idx} {r : CellRef} (g : Good l i s.map.size r s)
    (h : Later (fun m c m' => c ≠ .erase l ∧ m'.size.x * m'.size.y = m.size.x * m.size.y) s t) : Good l i s.map.size r t := by
  induction h with
  | now => exact g
  | returned c _ hp e ih => have := ih.call hp.1 (by rw [e]; exact hp.2); rwa [e] at this
  | threw c _ _ hp e ih => have := ih.call hp.1 (by rw [e]; exact hp.2); rwa [e] at this
  | stored r v _ e ih => exact ih.store e

theorem Later.mono {P Q : CostMap K → Call K → CostMap K → Prop} (hpq : ∀ m c m', P m c m' → Q m c m') {s t : InMemory K}
    (h : Later P s t) : Later Q s t := by
  induction h with
  | now => exact .now
  | returned c _ hp e ih => exact ih.returned c (hpq _ _ _ hp) e
  | threw c e' _ hp e ih => exact ih.threw c e' (hpq _ _ _ hp) e
  | stored r v _ e ih => exact ih.stored r v e

end InMemory

open InMemory

/-! ## The property -/

/-- C106. Through calls that keep the size and do not erase its layer, a reference stays the one to the cell it was taken for:
reading gives the cost that the cell has by now, and writing does what writing with `at` does. -/
theorem C106_kept {s t : InMemory K} (hc : s.map.Coherent) {l : String} {i : Idx} {r : CellRef} (hr : s.refer l i = .ok r)
    (h : Later (fun m c m' => c ≠ .erase l ∧ m'.size = m.size) s t) :
    t.load r = t.map.at l i ∧ (∃ c, t.map.at l i = .ok c) ∧
    ∀ v, store r v t = ((setAt l i v t.map).1, { t with map := (setAt l i v t.map).2 }) := by
  have hsz : t.map.size = s.map.size := by
    clear hr
    induction h with
    | now => rfl
    | returned c _ hp e ih => exact hp.2.trans ih
    | threw c _ _ hp e ih => exact hp.2.trans ih
    | stored r v _ e ih => exact (store_shape e).1.geo.size.trans ih
  have hi : i.In s.map.size := by
    obtain ⟨a, ha, hra, -⟩ := refer_ok hr
    exact (hc.inRange ha i).mp hra
  have g := (Good.of_refer hc hr).later (h.mono fun m c m' hp => ⟨hp.1, by rw [hp.2]⟩)
  have hr' := g.refer (hsz ▸ hi) (by rw [hsz])
  obtain ⟨h1, h2⟩ := refer_use hr'
  exact ⟨h1, g.coherent.at_ok g.has (hsz ▸ hi), h2⟩

/-- C106. The calls of which that is known without looking at their arguments. -/
theorem C106_kept_by {s t : InMemory K} (hc : s.map.Coherent) {l : String} {i : Idx} {r : CellRef} (hr : s.refer l i = .ok r)
    (h : Later (fun _ c _ => c ≠ .erase l ∧ c.KeepsCells) s t) :
    t.load r = t.map.at l i ∧ (∃ c, t.map.at l i = .ok c) ∧
    ∀ v, store r v t = ((setAt l i v t.map).1, { t with map := (setAt l i v t.map).2 }) := by
  refine C106_kept hc hr ?_
  clear hr
  induction h with
  | now => exact .now
  | @returned t u c _ hp e ih =>
    exact ih.returned c ⟨hp.1, by have := C106_size_stays hp.2 t.map; have e' := congrArg (fun x => x.2.map.size) e; exact e'.symm.trans this⟩ e
  | @threw t u c e' _ hp e ih =>
    exact ih.threw c e' ⟨hp.1, by have := C106_size_stays hp.2 t.map; have e' := congrArg (fun x => x.2.map.size) e; exact e'.symm.trans this⟩ e
  | stored r v _ e ih => exact ih.stored r v e

/-- C106. If the map is given other dimensions with as many cells, a reference stays good, but is to the cell with the same place in
the array, counted by columns. -/
theorem C106_other_dimensions {s t : InMemory K} (hc : s.map.Coherent) {l : String} {i : Idx} {r : CellRef}
    (hr : s.refer l i = .ok r)
    (h : Later (fun m c m' => c ≠ .erase l ∧ m'.size.x * m'.size.y = m.size.x * m.size.y) s t) {j : Idx} (hj : j.In t.map.size)
    (e : j.y * t.map.size.x + j.x = i.y * s.map.size.x + i.x) :
    t.load r = t.map.at l j ∧ ∀ v, store r v t = ((setAt l j v t.map).1, { t with map := (setAt l j v t.map).2 }) :=
  refer_use (((Good.of_refer hc hr).later h).refer hj e)

theorem clock_le {P : CostMap K → Call K → CostMap K → Prop} {s t : InMemory K} (h : Later P s t) : s.clock ≤ t.clock := by
  induction h with
  | now => exact le_refl _
  | returned c _ hp e ih => have := congrArg (fun x => x.2.clock) e; simp only [InMemory.call] at this; omega
  | threw c _ _ hp e ih => have := congrArg (fun x => x.2.clock) e; simp only [InMemory.call] at this; omega
  | stored r v _ e ih => rw [(store_shape e).2.1]; exact ih

theorem allocated_before {P : CostMap K → Call K → CostMap K → Prop} {m : CostMap K} {s : InMemory K} (h : Later P (start m) s)
    (l : String) : s.array l ≤ s.clock ∧ s.node l ≤ s.clock := by
  have key : ∀ (c : Call K) (t : InMemory K), t.array l ≤ t.clock ∧ t.node l ≤ t.clock →
      (InMemory.call c t).2.array l ≤ (InMemory.call c t).2.clock ∧ (InMemory.call c t).2.node l ≤ (InMemory.call c t).2.clock := by
    intro c t ht
    simp only [InMemory.call]
    constructor <;> split <;> omega
  induction h with
  | now => exact ⟨le_refl _, le_refl _⟩
  | returned c _ hp e ih => have := key c _ ih; rwa [e] at this
  | threw c _ _ hp e ih => have := key c _ ih; rwa [e] at this
  | stored r v _ e ih =>
    obtain ⟨-, h2, h3, h4⟩ := store_shape e
    rw [h2, h3, h4]; exact ih

/-- A reference whose array is gone. -/
def Lost (r : CellRef) (t : InMemory K) : Prop := r.array ≤ t.clock ∧ (t.map.data r.layer = none ∨ t.array r.layer ≠ r.array)

theorem Lost.call {r : CellRef} {t : InMemory K} (h : Lost r t) (c : Call K) : Lost r (InMemory.call c t).2 := by
  refine ⟨by simp only [InMemory.call]; exact h.1.trans (Nat.le_succ _), .inr ?_⟩
  simp only [InMemory.call]
  rcases h.2 with h2 | h2
  · have : t.map.sameArray (c.run t.map).2 r.layer = false := by unfold CostMap.sameArray; rw [h2]
    rw [this]
    have := h.1
    simp only [Bool.false_eq_true, if_false]
    omega
  · have := h.1
    split
    · exact h2
    · omega

theorem Lost.use {r : CellRef} {t : InMemory K} (h : Lost r t) : t.load r = .ub ∧ ∀ v, store r v t = (.ub, t) := by
  unfold InMemory.load InMemory.store
  rcases h.2 with h2 | h2
  · simp [h2]
  · constructor
    · split
      · rfl
      · rw [if_neg h2]
    · intro v
      split
      · rfl
      · rw [if_neg fun h => h2 h.1]

/-- C106. That is all: once its layer is erased or its number of cells changes, a reference is dangling for ever, also if the layer
is added again or the number of cells is what it was. -/
theorem C106_dangling {m : CostMap K} (hm : m.Coherent) {s t u w : InMemory K} (h0 : Later (fun _ _ _ => True) (start m) s)
    {l : String} {i : Idx} {r : CellRef} (hr : s.refer l i = .ok r) (h1 : Later (fun _ _ _ => True) s t) {c : Call K}
    (hu : (InMemory.call c t).2 = u)
    (hl : u.map.exists l = false ∨ u.map.size.x * u.map.size.y ≠ t.map.size.x * t.map.size.y)
    (h2 : Later (fun _ _ _ => True) u w) :
    w.load r = .ub ∧ ∀ v, store r v w = (.ub, w) := by
  obtain ⟨a, ha, hra, hreq⟩ := refer_ok hr
  have hlayer : r.layer = l := by rw [hreq]
  have harr : r.array = s.array l := by rw [hreq]
  have hle : r.array ≤ t.clock := harr ▸ ((allocated_before h0 l).1.trans (clock_le h1))
  have hcoh : ∀ {a b : InMemory K}, a.map.Coherent → Later (fun _ _ _ => True) a b → b.map.Coherent := by
    intro a b ha hab
    induction hab with
    | now => exact ha
    | returned c _ hp e ih => have := call_coherent c _ ih; have e' := congrArg (fun x => x.2.map) e; exact e' ▸ this
    | threw c _ _ hp e ih => have := call_coherent c _ ih; have e' := congrArg (fun x => x.2.map) e; exact e' ▸ this
    | stored r v _ e ih => exact (store_shape e).1.coherent ih
  have ht : t.map.Coherent := hcoh (hcoh (a := start m) hm h0) h1
  have hlu : Lost r u := by
    subst hu
    refine ⟨hle.trans (Nat.le_succ _), ?_⟩
    rw [hlayer]
    cases hex : (InMemory.call c t).2.map.exists l with
    | false => exact .inl (exists_false_iff.mp hex)
    | true =>
      refine .inr ?_
      have hne : t.map.sameArray (c.run t.map).2 l = false := by
        cases hext : t.map.exists l with
        | false => unfold CostMap.sameArray; rw [exists_false_iff.mp hext]
        | true =>
          refine (sameArray_of ht (call_coherent c t.map ht) hext hex).trans (decide_eq_false ?_)
          rcases hl with hl | hl
          · rw [hex] at hl; cases hl
          · exact hl
      show (if t.map.sameArray (c.run t.map).2 l then t.array l else t.clock + 1) ≠ _
      rw [hne]
      simp only [Bool.false_eq_true, if_false]
      omega
  refine Lost.use ?_
  clear hu hl
  induction h2 with
  | now => exact hlu
  | returned c _ hp e ih => have := ih.call c; rwa [e] at this
  | threw c _ _ hp e ih => have := ih.call c; rwa [e] at this
  | stored r' v _ e ih =>
    obtain ⟨g1, g2, g3, -⟩ := store_shape e
    refine ⟨by rw [g2]; exact ih.1, ?_⟩
    rw [g3]
    rcases ih.2 with h | h
    · refine .inl ?_
      have := g1.isSome r.layer
      rw [h] at this
      exact Option.isNone_iff_eq_none.mp (by rw [← Option.not_isSome, this]; rfl)
    · exact .inr h

/-- C106. The reference that `get` returned is to the matrix of its layer, whatever its size, until the layer is erased. -/
theorem C106_matrix {s t : InMemory K} {l : String} {r : MatrixRef} (hr : s.referMatrix l = .ok r)
    (h : Later (fun _ c _ => c ≠ .erase l) s t) : t.loadMatrix r = t.map.get l ∧ t.map.exists l = true := by
  have h0 : r = ⟨l, s.node l⟩ ∧ s.map.exists l = true := by
    unfold referMatrix at hr
    split at hr
    · cases hr
    · rename_i a ha
      cases hr; exact ⟨rfl, exists_iff.mpr ⟨a, ha⟩⟩
  obtain ⟨rfl, hex⟩ := h0
  have key : t.node l = s.node l ∧ t.map.exists l = true := by
    have step : ∀ (c : Call K) (u : InMemory K), c ≠ .erase l → u.node l = s.node l ∧ u.map.exists l = true →
        (InMemory.call c u).2.node l = s.node l ∧ (InMemory.call c u).2.map.exists l = true := by
      intro c u hne hu
      have h2 := C106_layers_stay l hne hu.2
      refine ⟨?_, h2⟩
      have hs : u.map.sameMatrix (c.run u.map).2 l = true := by
        unfold CostMap.sameMatrix
        have a1 : (u.map.data l).isSome = true := hu.2
        have a2 : ((c.run u.map).2.data l).isSome = true := h2
        rw [a1, a2]; rfl
      show (if u.map.sameMatrix (c.run u.map).2 l then u.node l else u.clock + 1) = _
      rw [hs, if_pos rfl, hu.1]
    induction h with
    | now => exact ⟨rfl, hex⟩
    | returned c _ hp e ih => have := step c _ hp ih; rwa [e] at this
    | threw c _ _ hp e ih => have := step c _ hp ih; rwa [e] at this
    | stored r' v _ e ih =>
      obtain ⟨g1, -, -, g4⟩ := store_shape e
      exact ⟨by rw [g4]; exact ih.1, (g1.isSome l).trans ih.2⟩
  refine ⟨?_, key.2⟩
  obtain ⟨a, ha⟩ := exists_iff.mp key.2
  unfold loadMatrix CostMap.get
  simp only [ha, key.1, if_true]

/-! ## Programs -/

theorem call_eq (c : Call K) (s : InMemory K) : (InMemory.call c s).1 = (c.run s.map).1 ∧ (InMemory.call c s).2.map = (c.run s.map).2 :=
  ⟨rfl, rfl⟩

/-- C106. A program that keeps references is the same as one that calls `at` every time: it reads the same, ends the same way and
leaves the same map. The calls are any that keep the number of cells and do not erase a layer with a reference into it. -/
theorem C106_programs {ps : List (String × Idx)} {rs : List CellRef} (p : List (RefStmt K))
    (hp : ∀ c, RefStmt.call c ∈ p → c.KeepsCells ∧ ∀ x ∈ ps, c ≠ .erase x.1) :
    ∀ {s : InMemory K}, s.map.Coherent → List.Forall₂ (fun x r => s.refer x.1 x.2 = .ok r) ps rs →
      (RefStmt.runKept rs p s).1 = (RefStmt.runAt ps p s.map).1 ∧ (RefStmt.runKept rs p s).2.map = (RefStmt.runAt ps p s.map).2 := by
  induction p with
  | nil => intro s _ _; exact ⟨rfl, rfl⟩
  | cons st p ih =>
    intro s hc hrs
    have ih := @ih fun c h => hp c (List.mem_cons_of_mem _ h)
    cases st with
    | call c =>
      obtain ⟨hk, hne⟩ := hp c (by simp)
      have hc' := call_coherent c s.map hc
      have hsz := C106_size_stays hk s.map
      have hrs' : List.Forall₂ (fun x r => (InMemory.call c s).2.refer x.1 x.2 = .ok r) ps rs := by
        rw [List.forall₂_iff_get] at hrs ⊢
        refine ⟨hrs.1, fun k h1 h2 => ?_⟩
        have hr := hrs.2 k h1 h2
        obtain ⟨a, ha, hra, -⟩ := refer_ok hr
        have g := (Good.of_refer hc hr).call (hne _ (List.get_mem _ _)) (by
          show (c.run s.map).2.size.x * (c.run s.map).2.size.y = _
          rw [hsz])
        exact g.refer (by show Idx.In _ (c.run s.map).2.size; rw [hsz]; exact (hc.inRange ha _).mp hra) (by
          show _ * (c.run s.map).2.size.x + _ = _
          rw [hsz])
      have e := ih (s := (InMemory.call c s).2) hc' hrs'
      unfold RefStmt.runKept RefStmt.runAt
      unfold Act.bind
      rw [show InMemory.call c s = ((c.run s.map).1, (InMemory.call c s).2) from rfl]
      rw [show c.run s.map = ((c.run s.map).1, (c.run s.map).2) from rfl]
      cases ho : (c.run s.map).1 with
      | ok _ => exact e
      | thrown e' => exact ⟨rfl, rfl⟩
      | assertFail => exact ⟨rfl, rfl⟩
      | ub => exact ⟨rfl, rfl⟩
      | outOfFuel => exact ⟨rfl, rfl⟩
    | load k =>
      unfold RefStmt.runKept RefStmt.runAt
      rw [List.forall₂_iff_get] at hrs
      by_cases hk : k < rs.length
      · have hk' : k < ps.length := hrs.1 ▸ hk
        rw [List.getElem?_eq_getElem hk, List.getElem?_eq_getElem hk']
        have hr := hrs.2 k hk' hk
        have hu := (refer_use hr).1
        obtain ⟨a, ha, hra, -⟩ := refer_ok hr
        obtain ⟨c, hcost⟩ := hc.at_ok (exists_iff.mpr ⟨a, ha⟩) ((hc.inRange ha _).mp hra)
        simp only [List.get_eq_getElem] at hu hcost
        simp only
        rw [Act.bind_ok (show Act.read (fun s : InMemory K => s.load rs[k]) s = (.ok c, s) from Prod.ext (hu.trans hcost) rfl),
          Act.bind_ok (show Act.read (fun m : CostMap K => m.at ps[k].1 ps[k].2) s.map = (.ok c, s.map) from Prod.ext hcost rfl)]
        have e := ih hc (List.forall₂_iff_get.mpr hrs)
        unfold Act.bind
        rcases h1 : RefStmt.runKept rs p s with ⟨o1, s1⟩
        rcases h2 : RefStmt.runAt ps p s.map with ⟨o2, m2⟩
        rw [h1, h2] at e
        obtain ⟨rfl, rfl⟩ := e
        cases o1 <;> exact ⟨rfl, rfl⟩
      · rw [List.getElem?_eq_none (by omega), List.getElem?_eq_none (by have := hrs.1; omega)]
        exact ⟨rfl, rfl⟩
    | store k v =>
      unfold RefStmt.runKept RefStmt.runAt
      by_cases hk : k < rs.length
      · have hg := List.forall₂_iff_get.mp hrs
        have hk' : k < ps.length := hg.1 ▸ hk
        rw [List.getElem?_eq_getElem hk, List.getElem?_eq_getElem hk']
        have hr := hg.2 k hk' hk
        have hu := (refer_use hr).2 v
        obtain ⟨a, ha, hra, -⟩ := refer_ok hr
        have hset := setAt_eq ha hra v
        simp only [List.get_eq_getElem] at hu hset
        rw [hset] at hu
        simp only
        rw [Act.bind_ok hu, Act.bind_ok hset]
        obtain ⟨g1, -, g3, -⟩ := store_shape hu
        refine ih (g1.coherent hc) (hrs.imp fun x r hx => ?_)
        have hcx := Good.of_refer hc hx
        obtain ⟨b, hb, hrb, -⟩ := refer_ok hx
        exact (hcx.store hu).refer (by rw [g1.geo.size]; exact (hc.inRange hb _).mp hrb) (by rw [g1.geo.size])
      · have hg := List.forall₂_iff_get.mp hrs
        rw [List.getElem?_eq_none (by omega), List.getElem?_eq_none (by have := hg.1; omega)]
        exact ⟨rfl, rfl⟩

end

/-! ## Calls after which a reference is not good -/

open InMemory

/-- Read through a reference to a cell of layer `a` after some calls on the map of `Demo`. -/
def loadAfter (i : Idx) (cs : List (Call ℚ)) : Res Cost :=
  ((start Demo.base).refer "a" i).bind fun r => (Act.forEach InMemory.call cs (start Demo.base)).2.load r

/-- C106. What the other calls do: `erase`, also if the layer is added again, and `setGeometry` with another number of cells, also
if it is called again with the old one, leave references dangling. -/
theorem C106_dangling_cases :
    loadAfter ⟨3, 2⟩ [.erase "a"] = .ub ∧ loadAfter ⟨3, 2⟩ [.erase "a", .addConst "a" 0] = .ub ∧
    loadAfter ⟨3, 2⟩ [.setGeometry ⟨5, 2⟩ (1 / 2) ⟨0, 0⟩] = .ub ∧
    loadAfter ⟨3, 2⟩ [.setGeometry ⟨5, 2⟩ (1 / 2) ⟨0, 0⟩, .setGeometry ⟨5 / 2, 2⟩ (1 / 2) ⟨0, 0⟩] = .ub := by
  refine ⟨by decide +kernel, by decide +kernel, by decide +kernel, by decide +kernel⟩

/-- C106. With other dimensions and as many cells, the reference to (3, 2) is one to (1, 3). -/
theorem C106_other_dimensions_case :
    loadAfter ⟨3, 2⟩ [.setGeometry ⟨2, 5 / 2⟩ (1 / 2) ⟨0, 0⟩, .setAt "a" ⟨3, 2⟩ 1, .setAt "a" ⟨1, 3⟩ 2] = .ok 2 := by decide +kernel

/-! ## Non-vacuity -/

/-- Moved, cleared, merged with itself and written to, with an exception in between: the reference is to (3, 2) still. -/
example : loadAfter ⟨3, 2⟩ [] = .ok 32 := by decide +kernel
example : loadAfter ⟨3, 2⟩ [.addConst "c" 0, .move ⟨3 / 2, -1⟩, .addDataFrom Demo.base false true true [], .setAt "a" ⟨3, 2⟩ 9,
    .erase "b", .clear "c"] = .ok 9 := by decide +kernel

/-- The hypotheses of `C106_kept_by`. -/
example : ∃ r t, (start Demo.base).refer "a" ⟨3, 2⟩ = .ok r ∧
    Later (fun _ c _ => c ≠ .erase "a" ∧ c.KeepsCells) (start Demo.base) t ∧ t.load r = .ok NO_INFORMATION := by
  obtain ⟨r, hr⟩ := refer_exists (s := start Demo.base) Demo.base_coherent (l := "a") (by decide +kernel) (i := ⟨3, 2⟩)
    (by decide +kernel)
  have h : Later (fun _ c _ => c ≠ .erase "a" ∧ c.KeepsCells) (start Demo.base)
      (InMemory.call (.clear "a") (start Demo.base)).2 :=
    Later.returned (.clear "a") .now ⟨by simp, trivial⟩ (Prod.ext (by decide +kernel) rfl)
  refine ⟨r, _, hr, h, ?_⟩
  rw [(C106_kept_by Demo.base_coherent hr h).1]
  decide +kernel

/-- A program with two references. -/
example : ∃ r r', (start Demo.base).refer "a" ⟨3, 2⟩ = .ok r ∧ (start Demo.base).refer "b" ⟨2, 1⟩ = .ok r' ∧
    (RefStmt.runKept [r, r'] [.load 0, .store 0 5, .call (.move ⟨1, -1⟩), .load 0, .store 1 4, .call (.addConst "c" 1), .load 1]
      (start Demo.base)).1 = .ok [32, 5, 4] := by
  obtain ⟨r, hr⟩ := refer_exists (s := start Demo.base) Demo.base_coherent (l := "a") (by decide +kernel) (i := ⟨3, 2⟩)
    (by decide +kernel)
  obtain ⟨r', hr'⟩ := refer_exists (s := start Demo.base) Demo.base_coherent (l := "b") (by decide +kernel) (i := ⟨2, 1⟩)
    (by decide +kernel)
  refine ⟨r, r', hr, hr', ?_⟩
  rw [(C106_programs (ps := [("a", ⟨3, 2⟩), ("b", ⟨2, 1⟩)]) _ (by
    intro c hc
    simp only [List.mem_cons, RefStmt.call.injEq, reduceCtorEq, false_or, or_false, List.not_mem_nil] at hc
    rcases hc with rfl | rfl <;> exact ⟨trivial, by simp⟩) Demo.base_coherent (.cons hr (.cons hr' .nil))).1]
  decide +kernel

/-- The reference that `get` returned, after `setGeometry`. -/
example : ∃ r t, (start Demo.base).referMatrix "a" = .ok r ∧ Later (fun _ c _ => c ≠ .erase "a") (start Demo.base) t ∧
    t.loadMatrix r = t.map.get "a" ∧ t.map.size = ⟨10, 4⟩ := by
  obtain ⟨r, hr⟩ := referMatrix_exists (s := start Demo.base) (l := "a") (by decide +kernel)
  have h : Later (fun _ c _ => c ≠ .erase "a") (start Demo.base)
      (InMemory.call (.setGeometry ⟨5, 2⟩ (1 / 2) ⟨0, 0⟩) (start Demo.base)).2 :=
    Later.returned (.setGeometry ⟨5, 2⟩ (1 / 2) ⟨0, 0⟩) .now (by simp) (Prod.ext (by decide +kernel) rfl)
  exact ⟨r, _, hr, h, (C106_matrix hr h).1, by decide +kernel⟩

end CostMapModel

import Verif.Lemmas.Extend
import Verif.Props.Submap
import Verif.Props.Demo

/-! # Merging maps: C33 - C36 -/

set_option linter.unusedSectionVars false

namespace CostMapModel
open CostMap
variable {K : Type} [Field K] [LinearOrder K] [IsStrictOrderedRing K] [FloorRing K]

/-! ## C33 -/

theorem validAt_eq_some {other : CostMap K} {p : Vec K} {l : String} {c : Cost} :
    validAt other p l = some c ↔ other.atPosition l p = .ok c ∧ c ≠ NO_INFORMATION := by
  unfold validAt
  cases h : other.atPosition l p with
  | ok d =>
    simp only [Res.ok.injEq]
    split
    · constructor
      · intro h; cases h
      · rintro ⟨rfl, h2⟩; contradiction
    · simp only [Option.some.injEq]
      constructor
      · rintro rfl; exact ⟨rfl, by assumption⟩
      · exact fun h => h.1
  | _ => simp

theorem validAt_eq_none {other : CostMap K} {p : Vec K} {l : String} :
    validAt other p l = none ↔ ¬ ∃ c, other.atPosition l p = .ok c ∧ c ≠ NO_INFORMATION := by
  constructor
  · rintro h ⟨c, hc⟩; rw [validAt_eq_some.mpr hc] at h; cases h
  · intro h
    cases h' : validAt other p l with
    | none => rfl
    | some c => exact absurd ⟨c, validAt_eq_some.mp h'⟩ h

/-- C33. Merging without extension, when every requested layer exists in the other map (they all do when all layers
are copied) and the basic layers exist or are requested. The call succeeds and keeps the geometry; the layers afterwards
are the old and the requested ones. A cell of a requested layer takes the other map's cost at the cell's centre exactly
when the cell may be overwritten and that cost is valid; every other cell is unchanged, or unknown if its layer is
new. -/
theorem C33_merges_cell_by_cell {m other : CostMap K} (hg : m.Geo) (hc : m.Coherent) (hog : other.Geo)
    (hoc : other.Coherent) (overwrite all : Bool) (ls req : List String) (hreq : req = if all then other.layers else ls)
    (hls : ∀ l ∈ req, other.exists l = true) (hb : ∀ l ∈ m.basicLayers, m.exists l = true ∨ l ∈ req) :
    ∃ m', addDataFrom other false overwrite all ls m = (.ok true, m') ∧ SameGeometry m m' ∧ SameMeta m m' ∧
      m'.Coherent ∧ (∀ l, m'.exists l = true ↔ m.exists l = true ∨ l ∈ req) ∧
      ∀ l i p, m.getPosition i = some p →
        (∀ c, l ∈ req → (overwrite = true ∨ ¬ m.ValidCell i) → other.atPosition l p = .ok c → c ≠ NO_INFORMATION →
          m'.at l i = .ok c) ∧
        (¬ (l ∈ req ∧ (overwrite = true ∨ ¬ m.ValidCell i) ∧
            ∃ c, other.atPosition l p = .ok c ∧ c ≠ NO_INFORMATION) →
          (m.exists l = true → m'.at l i = m.at l i) ∧
          (m.exists l = false → l ∈ req → m'.at l i = .ok NO_INFORMATION)) := by
  classical
  obtain ⟨m1, e1, hc1, hg1, hm1, hx1, ha1, hn1, -⟩ := addMissing_spec req hc hg.size_x.le hg.size_y.le
  have hgeo1 := hg1.geo hg
  obtain ⟨m2, e2, hs2, hat2⟩ := mergeCells_spec hog hoc overwrite hls hgeo1 hc1
    (fun l hl => (hx1 l).mpr (hb l (by rw [← hm1.basicLayers]; exact hl))) (fun l hl => (hx1 l).mpr (Or.inr hl))
  refine ⟨m2, ?_, ?_, ?_, hs2.coherent hc1, ?_, ?_⟩
  · unfold addDataFrom
    rw [← hreq]
    simp only [Bool.false_eq_true, if_false]
    rw [Act.bind_ok (show (Act.pure true : Act (CostMap K) Bool) m = (.ok true, m) from rfl), Act.bind_ok e1,
      Act.bind_ok e2]
    rfl
  · have := hs2.geo
    exact ⟨this.length.trans hg1.length, this.resolution.trans hg1.resolution, this.position.trans hg1.position,
      this.size.trans hg1.size, this.startIndex.trans hg1.startIndex⟩
  · have := hs2.info
    exact ⟨this.frameId.trans hm1.frameId, this.timestamp.trans hm1.timestamp,
      this.basicLayers.trans hm1.basicLayers⟩
  · intro l
    rw [← hx1]
    have := hs2.isSome l
    simp only [CostMap.exists, this]
  · intro l i p hp
    have hi : i.In m.size := by
      by_contra h
      rw [getPosition_none h] at hp; cases hp
    have hvc : m1.ValidCell i ↔ m.ValidCell i := by
      unfold ValidCell
      rw [hm1.basicLayers]
      constructor
      · rintro ⟨h1, h2⟩
        refine ⟨h1, fun l hl => ?_⟩
        obtain ⟨c, hc', hne⟩ := h2 l hl
        by_cases hex : m.exists l = true
        · rw [ha1 l i hex] at hc'; exact ⟨c, hc', hne⟩
        · have hmem := (hb l hl).resolve_left hex
          rw [Bool.not_eq_true] at hex
          rw [hn1 l i hex hmem hi] at hc'
          cases hc'
          exact absurd rfl hne
      · rintro ⟨h1, h2⟩
        refine ⟨h1, fun l hl => ?_⟩
        obtain ⟨c, hc', hne⟩ := h2 l hl
        have hex : m.exists l = true := by
          by_contra h
          rw [Bool.not_eq_true] at h
          rw [at_none (exists_false_iff.mp h)] at hc'; cases hc'
        exact ⟨c, by rw [ha1 l i hex]; exact hc', hne⟩
    have hat := hat2 l i p ((getPosition_congr hg1 i).trans hp)
    rw [hvc] at hat
    constructor
    · intro c hl hov hoa hne
      rw [hat, if_pos ⟨hl, hov⟩, validAt_eq_some.mpr ⟨hoa, hne⟩]
    · intro hn
      have : (if l ∈ req ∧ (overwrite = true ∨ ¬ m.ValidCell i) then validAt other p l else none) = none := by
        split
        · rename_i h
          exact validAt_eq_none.mpr fun hex => hn ⟨h.1, h.2, hex⟩
        · rfl
      rw [hat, this]
      exact ⟨fun hex => ha1 l i hex, fun hex hl => hn1 l i hex hl hi⟩

/-- C33 with extension: the call is `extendToInclude` followed by a merge without extension. -/
theorem C33_extension_then_merge (m other : CostMap K) (overwrite all : Bool) (ls : List String) :
    addDataFrom other true overwrite all ls m =
      Act.bind (extendToInclude other) (fun _ => addDataFrom other false overwrite all ls) m := by
  rfl

/-- C33, for copying all layers of a map: nothing else is needed. -/
theorem C33_all_layers {m other : CostMap K} (hg : m.Geo) (hc : m.Coherent) (hog : other.Geo)
    (hoc : other.Coherent) (overwrite : Bool) (ls : List String) (hb : ∀ l ∈ m.basicLayers, m.exists l = true) :
    ∃ m', addDataFrom other false overwrite true ls m = (.ok true, m') ∧
      ∀ l i p c, m.getPosition i = some p → (overwrite = true ∨ ¬ m.ValidCell i) →
        other.atPosition l p = .ok c → c ≠ NO_INFORMATION → m'.at l i = .ok c := by
  obtain ⟨m', e, -, -, -, -, h⟩ := C33_merges_cell_by_cell hg hc hog hoc overwrite true ls other.layers rfl
    (fun l hl => (hoc.mem_iff l).mp hl) (fun l hl => Or.inl (hb l hl))
  refine ⟨m', e, fun l i p c hp hov hoa hne => (h l i p hp).1 c ?_ hov hoa hne⟩
  rw [hoc.mem_iff]
  by_contra hn
  have hn : other.data l = none := by
    cases h : other.data l with
    | none => rfl
    | some a => rw [h] at hn; simp at hn
  unfold atPosition at hoa
  simp only at hoa
  split at hoa
  · rw [at_none hn] at hoa; cases hoa
  · cases hoa

/-- C33. A requested layer that the other map lacks: as soon as some overwritable cell lies inside the other map the
call throws `std::out_of_range`. -/
theorem C33_missing_layer_throws :
    (addDataFrom Demo.rotated false true false ["z"] Demo.base).1 = .thrown .outOfRange := by decide +kernel

/-- The other map of the examples: 3 x 3 cells of the same resolution, shifted by a third of a cell, its only layer
`c` all 9. -/
def Demo.small : CostMap ℚ :=
  let m0 : CostMap ℚ := CostMap.new []
  let m1 := (CostMap.setGeometry ⟨3 / 2, 3 / 2⟩ (1 / 2) ⟨5 / 3, -1⟩ m0).2
  (CostMap.addConst "a" 9 m1).2

theorem Demo.small_geo : Demo.small.Geo where
  res_pos := by decide +kernel
  size_x := by decide +kernel
  size_y := by decide +kernel
  len_x := by decide +kernel
  len_y := by decide +kernel
  start := by decide +kernel

theorem Demo.small_coherent : Demo.small.Coherent :=
  addConst_coherent "a" 9 _ (setGeometry_coherent _ _ _ _ (new_coherent (by simp)))

example : ∃ m', addDataFrom Demo.small false true true [] Demo.rotated = (.ok true, m') ∧
    (∀ c, "a" ∈ Demo.small.layers → (true = true ∨ ¬ Demo.rotated.ValidCell ⟨4, 3⟩) →
      Demo.small.atPosition "a" ⟨3 / 2, -1 / 2 - 1 / 4⟩ = .ok c → c ≠ NO_INFORMATION → m'.at "a" ⟨4, 3⟩ = .ok c) := by
  obtain ⟨m', e, -, -, -, -, h⟩ := C33_merges_cell_by_cell Demo.rotated_geo Demo.rotated_coherent Demo.small_geo
    Demo.small_coherent true true [] _ rfl (by decide +kernel) (by decide +kernel)
  exact ⟨m', e, (h "a" ⟨4, 3⟩ ⟨3 / 2, -1 / 2 - 1 / 4⟩ (by decide +kernel)).1⟩

/-- The written cost is really there, and the neighbour outside the other map keeps its own. -/
example : (addDataFrom Demo.small false true true [] Demo.rotated).2.at "a" ⟨4, 3⟩ = .ok 9 ∧
    (addDataFrom Demo.small false true true [] Demo.rotated).2.at "a" ⟨2, 1⟩ = Demo.rotated.at "a" ⟨2, 1⟩ := by
  decide +kernel

/-! ## C34 -/

/-- What a merge without overwriting preserves: everything at a valid cell. -/
def KeepsCell (m : CostMap K) (i : Idx) (m' : CostMap K) : Prop :=
  m'.Coherent ∧ m'.basicLayers = m.basicLayers ∧ ∀ l c, m.at l i = .ok c → m'.at l i = .ok c

theorem KeepsCell.valid {m m' : CostMap K} {i : Idx} (h : KeepsCell m i m') (hv : m.ValidCell i) :
    m'.isValid i = .ok true := by
  obtain ⟨hne, hall⟩ := hv
  have hall' : ∀ l ∈ m'.basicLayers, ∃ c, m'.at l i = .ok c ∧ c ≠ NO_INFORMATION := by
    intro l hl
    rw [h.2.1] at hl
    obtain ⟨c, hc, hn⟩ := hall l hl
    exact ⟨c, h.2.2 l c hc, hn⟩
  obtain ⟨b, hb, hb'⟩ := isValid_eq (m := m') (i := i) (fun l hl => (hall' l hl).imp fun _ h => h.1)
  rw [hb, hb'.mpr ⟨by rw [h.2.1]; exact hne, hall'⟩]

theorem setAt_keepsCell {m : CostMap K} {i : Idx} (l : String) {j : Idx} (hj : j ≠ i) (v : Cost) :
    Act.Keeps (KeepsCell m i) (setAt l j v) := by
  intro s hs
  refine ⟨(setAt_shape l j v s).coherent hs.1, (setAt_shape l j v s).info.basicLayers.trans hs.2.1, ?_⟩
  intro l' c hc
  unfold setAt
  split
  · exact hs.2.2 l' c hc
  · rename_i a ha
    split
    · rw [at_setData]
      split
      · rename_i h
        subst h
        have hne : ¬ (i.x = j.x ∧ i.y = j.y) := fun h => hj (Idx.ext h.1 h.2).symm
        rw [a.get?_set, if_neg hne, ← at_eq ha]
        exact hs.2.2 _ c hc
      · exact hs.2.2 l' c hc
    · exact hs.2.2 l' c hc

theorem addMissing_keepsCell {m : CostMap K} {i : Idx} (l : String) : Act.Keeps (KeepsCell m i) (addMissing l) := by
  intro s hs
  refine ⟨addMissing_keeps l s hs.1, ?_, ?_⟩
  · unfold addMissing addConst add
    repeat' split
    all_goals exact hs.2.1
  · intro l' c hc
    have h0 := hs.2.2 l' c hc
    unfold addMissing
    split
    · exact h0
    · rename_i hl
      have hne : l' ≠ l := by
        rintro rfl
        have : s.data l' = none := by
          cases hd : s.data l' with
          | none => rfl
          | some a => exact absurd ((hs.1.mem_iff l').mpr (by simp [hd])) hl
        rw [at_none this] at h0; cases h0
      unfold addConst add
      split
      · exact h0
      split
      · exact h0
      split
      · rw [at_setData, if_neg hne]; exact h0
      · rw [at_congr (m := s) (by simp [setData, hne])]; exact h0

theorem mergeCell_keepsCell {m other : CostMap K} {i : Idx} (hv : m.ValidCell i) (ls : List String) (j : Idx) :
    Act.Keeps (KeepsCell m i) (mergeCell other false ls j) := by
  by_cases hj : j = i
  · subst hj
    intro s hs
    unfold mergeCell
    have e0 : (Act.read fun m : CostMap K => m.isValid j) s = (.ok true, s) := by simp [Act.read, hs.valid hv]
    rw [Act.bind_ok e0]
    exact hs
  · refine Act.Keeps.bind (fun _ h => h) fun v => ?_
    split
    · exact Act.Keeps.pure ()
    · intro s hs
      simp only
      split
      · exact hs
      · split
        · exact hs
        · refine Act.Keeps.forEach (fun l => ?_) ls s hs
          unfold mergeLayer
          refine (Act.Keeps.lift _).bind fun v => ?_
          split
          · exact Act.Keeps.pure ()
          · exact (Act.Keeps.lift _).bind fun c => setAt_keepsCell l hj c

/-- C34, the true part. Without overwriting nothing is replaced at a valid cell, in any layer and whatever the other
map and the requested layers are, even if the call throws. Valid here is what `isValid(index)` means: the map has basic
layers and they are all valid. What is missing is a valid cost of a cell that `isValid` calls invalid: `C34_false`. -/
theorem C34_valid_cells_are_kept_partial {m other : CostMap K} (hc : m.Coherent) {i : Idx} (hv : m.ValidCell i)
    (all : Bool) (ls : List String) {l : String} {c : Cost} (h : m.at l i = .ok c) :
    (addDataFrom other false false all ls m).2.at l i = .ok c := by
  have key : Act.Keeps (KeepsCell m i) (addDataFrom other false false all ls) := by
    unfold addDataFrom
    simp only [Bool.false_eq_true, if_false]
    refine (Act.Keeps.pure true).bind fun _ => ?_
    refine (Act.Keeps.forEach addMissing_keepsCell _).bind fun _ => ?_
    exact (forCells_keeps (mergeCell_keepsCell hv _)).bind fun _ => Act.Keeps.pure true
  exact (key m ⟨hc, rfl, fun _ _ h => h⟩).2.2 l c h

/-- C34 for a map with one basic layer: no valid cost of that layer is replaced. -/
theorem C34_single_basic_layer {m other : CostMap K} (hc : m.Coherent) {l : String} (hb : m.basicLayers = [l])
    (all : Bool) (ls : List String) {i : Idx} {c : Cost} (h : m.at l i = .ok c) (hn : c ≠ NO_INFORMATION) :
    (addDataFrom other false false all ls m).2.at l i = .ok c :=
  C34_valid_cells_are_kept_partial hc
    ⟨by simp [hb], fun l' hl' => by rw [hb, List.mem_singleton] at hl'; subst hl'; exact ⟨c, h, hn⟩⟩ all ls h

/-- C34 is false as stated: in a map without basic layers no cell counts as valid, so a valid cost is replaced although
`overwriteData` is false. -/
theorem C34_false : ∃ (m other : CostMap ℚ) (l : String) (i : Idx) (c : Cost), m.Geo ∧ m.Coherent ∧ other.Geo ∧
    other.Coherent ∧ c ≠ NO_INFORMATION ∧ m.at l i = .ok c ∧
    (addDataFrom other false false true [] m).1 = .ok true ∧
    (addDataFrom other false false true [] m).2.at l i = .ok 9 ∧ c ≠ 9 :=
  ⟨Demo.base.setBasicLayers [], Demo.small, "a", ⟨1, 1⟩, 11,
    ⟨Demo.base_geo.res_pos, Demo.base_geo.size_x, Demo.base_geo.size_y, Demo.base_geo.len_x, Demo.base_geo.len_y,
      Demo.base_geo.start⟩,
    ⟨Demo.base_coherent.nodup, Demo.base_coherent.mem_iff, Demo.base_coherent.dims⟩, Demo.small_geo,
    Demo.small_coherent, by decide +kernel, by decide +kernel, by decide +kernel, by decide +kernel, by decide +kernel⟩

theorem Demo.base_valid : Demo.base.ValidCell ⟨1, 1⟩ := by
  refine ⟨by decide +kernel, fun l hl => ?_⟩
  have : l = "a" := by
    have : Demo.base.basicLayers = ["a"] := by decide +kernel
    rw [this] at hl; simpa using hl
  subst this
  exact ⟨11, by decide +kernel, by decide +kernel⟩

example : (addDataFrom Demo.small false false true [] Demo.base).2.at "a" ⟨1, 1⟩ = .ok 11 :=
  C34_valid_cells_are_kept_partial Demo.base_coherent Demo.base_valid true [] (by decide +kernel)

/-! ## C35 and C36 -/

/-- Everything about a call of `extendToInclude`. -/
theorem extend_spec {m : CostMap K} (h : m.Geo) (hc : m.Coherent) (hb : ∀ l ∈ m.basicLayers, m.exists l = true)
    (other : CostMap K) :
    ∃ m', extendToInclude other m = (.ok true, m') ∧ m'.Geo ∧ m'.Coherent ∧ SameMeta m m' ∧ m'.layers = m.layers ∧
      m'.resolution = m.resolution ∧ m'.size = extSize m other ∧ m'.position = extCenter m other ∧
      (∃ w : Idx, ∀ p, m'.cellU p = m.cellU p + w) ∧
      ∀ l, m.exists l = true → ∀ p, m'.Covers p →
        (m.Covers p → m'.atPosition l p = m.atPosition l p) ∧
        (¬ m.Covers p → m'.atPosition l p = .ok NO_INFORMATION) := by
  have hr := h.res_pos
  rw [extendToInclude_eq h]
  split
  · have hg := extEmpty_geo h other
    obtain ⟨m', e, hs, hat⟩ := restoreCells_spec h hc hb other
    have hg' := hs.geo' hg
    obtain ⟨w, hw⟩ := ext_offset h other
    have hcell : ∀ p, m'.cellU p = (extEmpty m other).cellU p := by
      intro p
      simp only [cellU, hs.geo.position, hs.geo.length, hs.geo.resolution]
    refine ⟨m', ?_, hg', hs.coherent (extEmpty_coherent h hc other), ?_, hs.layers, hs.geo.resolution, hs.geo.size,
      hs.geo.position, ⟨w, fun p => by rw [hcell, hw]⟩, ?_⟩
    · rw [Act.bind_ok e]; rfl
    · exact ⟨hs.info.frameId, hs.info.timestamp, hs.info.basicLayers⟩
    · intro l hl p hp
      have hin : m'.isInside p = true := (C11_inside_iff _ _).mpr hp
      set u := m'.cellU p with hu
      have hui : u.In m'.size := (isInside_iff hg' p).mp hin
      have hii := bufferIdx_in hui hg'.start
      have hpos : (extEmpty m other).getPosition (bufferIdx u m'.size m'.startIndex) =
          some ((extEmpty m other).center u) := by
        have := getPosition_eq (m := extEmpty m other) (i := bufferIdx u m'.size m'.startIndex)
          (by rw [← hs.geo.size]; exact hii)
        rw [this, ← hs.geo.size, ← hs.geo.startIndex, unwrap_buffer hui hg'.start]
      have hval := hat l hl _ _ hpos
      have hcu : m.cellU ((extEmpty m other).center u) = m.cellU p := by
        have h1 := hw ((extEmpty m other).center u)
        rw [cellU_center hg] at h1
        have h2 := hw p
        rw [← hcell, ← hu] at h2
        have h3 := h1.symm.trans h2
        ext
        · have := congrArg Idx.x h3; simp only [Idx.add_x] at this; omega
        · have := congrArg Idx.y h3; simp only [Idx.add_y] at this; omega
      have hins : m.isInside ((extEmpty m other).center u) = true ↔ m.Covers p := by
        rw [isInside_iff h, hcu, ← covers_iff_cellU h]
      rw [atPosition_inside hin, getIndex_fst hg' hin, ← hu, hval]
      constructor
      · intro hmp
        have hm1 := hins.mpr hmp
        have hm2 : m.isInside p = true := (C11_inside_iff _ _).mpr hmp
        rw [if_pos hm1, atPosition_inside hm1, atPosition_inside hm2, getIndex_fst h hm1, getIndex_fst h hm2, hcu]
      · intro hmp
        rw [if_neg (fun h' => hmp (hins.mp h'))]
  · rename_i hno
    simp only [not_or, not_lt] at hno
    obtain ⟨⟨h1, h2⟩, h3, h4⟩ := hno
    have z1 := le_antisymm h1 (over_nonneg _ _ _ _)
    have z2 := le_antisymm h2 (under_nonneg _ _ _ _)
    have z3 := le_antisymm h3 (over_nonneg _ _ _ _)
    have z4 := le_antisymm h4 (under_nonneg _ _ _ _)
    have hsize : m.size = extSize m other := by
      ext
      · simp only [extSize, z1, z2, add_zero]
        rw [h.len_x, roundHalfAway_mul h.size_x hr]
      · simp only [extSize, z3, z4, add_zero]
        rw [h.len_y, roundHalfAway_mul h.size_y hr]
    have h0 : ∀ (c : K) (n : Int), 0 < n → alignAxis m.resolution (c + (0 - 0) / 2) c n n = c := by
      intro c n hn
      rw [alignAxis_halfCells hr]
      have e := halfCells_whole (K := K) n 0 0 hn le_rfl le_rfl
      have : (c + (0 - 0) / 2 - c) / m.resolution = (((0 : Int) : K) - ((0 : Int) : K)) / 2 := by simp
      rw [this]
      simp only [add_zero] at e
      rw [e]
      simp
    refine ⟨m, rfl, h, hc, ⟨rfl, rfl, rfl⟩, rfl, rfl, hsize, ?_, ⟨0, fun p => by ext <;> simp⟩, ?_⟩
    · ext
      · simp only [extCenter, z1, z2, ← hsize]
        rw [h0 _ _ h.size_x]
      · simp only [extCenter, z3, z4, ← hsize]
        rw [h0 _ _ h.size_y]
    · intro l _ p hp
      exact ⟨fun _ => rfl, fun hn => absurd hp hn⟩

/-- C36, the true part. Whatever the other map, `extendToInclude` succeeds and every position of the new extent reads
what it read before if it was in the old extent, and `NO_INFORMATION` otherwise. What is missing is that the new extent
contains the old one: see `C36_old_extent_kept_iff` and `C36_false`. -/
theorem C36_data_stays_partial {m : CostMap K} (h : m.Geo) (hc : m.Coherent)
    (hb : ∀ l ∈ m.basicLayers, m.exists l = true) (other : CostMap K) :
    ∃ m', extendToInclude other m = (.ok true, m') ∧ m'.Geo ∧ m'.Coherent ∧ SameMeta m m' ∧ m'.layers = m.layers ∧
      m'.resolution = m.resolution ∧
      ∀ l, m.exists l = true → ∀ p, m'.Covers p →
        (m.Covers p → m'.atPosition l p = m.atPosition l p) ∧
        (¬ m.Covers p → m'.atPosition l p = .ok NO_INFORMATION) := by
  obtain ⟨m', e, h1, h2, h3, h4, h5, -, -, -, h6⟩ := extend_spec h hc hb other
  exact ⟨m', e, h1, h2, h3, h4, h5, h6⟩

/-- One axis of the covered interval. -/
theorem interval_subset_iff {c l c' l' : K} (hl : 0 < l) :
    (∀ t, (c - l / 2 < t ∧ t ≤ c + l / 2) → (c' - l' / 2 < t ∧ t ≤ c' + l' / 2)) ↔
      c' - l' / 2 ≤ c - l / 2 ∧ c + l / 2 ≤ c' + l' / 2 := by
  constructor
  · intro h
    refine ⟨?_, (h (c + l / 2) ⟨by linarith, le_refl _⟩).2⟩
    by_contra hn
    push Not at hn
    by_cases hm : c' - l' / 2 ≤ c + l / 2
    · exact absurd (h (c' - l' / 2) ⟨hn, hm⟩).1 (lt_irrefl _)
    · push Not at hm
      have := (h (c + l / 2) ⟨by linarith, le_refl _⟩).1
      linarith
  · rintro ⟨h1, h2⟩ t ⟨h3, h4⟩
    constructor <;> linarith

theorem covers_subset_iff {m m' : CostMap K} (hx : 0 < m.length.x) (hy : 0 < m.length.y) :
    (∀ p, m.Covers p → m'.Covers p) ↔
      (m'.position.x - m'.length.x / 2 ≤ m.position.x - m.length.x / 2 ∧
        m.position.x + m.length.x / 2 ≤ m'.position.x + m'.length.x / 2) ∧
      (m'.position.y - m'.length.y / 2 ≤ m.position.y - m.length.y / 2 ∧
        m.position.y + m.length.y / 2 ≤ m'.position.y + m'.length.y / 2) := by
  rw [← interval_subset_iff hx, ← interval_subset_iff hy]
  unfold Covers
  constructor
  · intro h
    have p0x : m.position.x - m.length.x / 2 < m.position.x ∧ m.position.x ≤ m.position.x + m.length.x / 2 :=
      ⟨by linarith, by linarith⟩
    have p0y : m.position.y - m.length.y / 2 < m.position.y ∧ m.position.y ≤ m.position.y + m.length.y / 2 :=
      ⟨by linarith, by linarith⟩
    exact ⟨fun t ht => (h ⟨t, m.position.y⟩ ⟨ht, p0y⟩).1, fun t ht => (h ⟨m.position.x, t⟩ ⟨p0x, ht⟩).2⟩
  · rintro ⟨h1, h2⟩ p ⟨h3, h4⟩
    exact ⟨h1 _ h3, h2 _ h4⟩

theorem Geo.length_pos {m : CostMap K} (h : m.Geo) : 0 < m.length.x ∧ 0 < m.length.y := by
  have hr := h.res_pos
  have h1 : (0 : K) < m.size.x := by exact_mod_cast h.size_x
  have h2 : (0 : K) < m.size.y := by exact_mod_cast h.size_y
  rw [h.len_x, h.len_y]
  exact ⟨by positivity, by positivity⟩

/-- One axis: the new interval contains the old one unless the map grows by exactly one cell although the other map
sticks out at least one cell more below than above. -/
theorem axis_kept {r c a b : K} {n N : Int} (hr : 0 < r) (hn : 0 < n) (ha : 0 ≤ a) (hb : 0 ≤ b)
    (hN : roundHalfAway (((n : K) * r + a + b) / r) = N) :
    (alignAxis r (c + (a - b) / 2) c N n - (N : K) * r / 2 ≤ c - (n : K) * r / 2 ∧
      c + (n : K) * r / 2 ≤ alignAxis r (c + (a - b) / 2) c N n + (N : K) * r / 2) ↔
      ¬ (N = n + 1 ∧ r ≤ b - a) := by
  have e1 : ((n : K) * r + a + b) / r = n + a / r + b / r := by field_simp
  have e2 : (c + (a - b) / 2 - c) / r = (a / r - b / r) / 2 := by field_simp; ring
  have e3 : (1 ≤ b / r - a / r) ↔ r ≤ b - a := by
    rw [← sub_div, le_div_iff₀ hr, one_mul]
  rw [e1] at hN
  have key := halfCells_le (div_nonneg ha hr.le) (div_nonneg hb hr.le) hn hN
  rw [alignAxis_halfCells hr, e2]
  rw [if_congr (and_congr Iff.rfl e3) rfl rfl] at key
  generalize halfCells ((a / r - b / r) / 2) N n = z at key
  have h2 : (c + r / 2 * (z : K) - (N : K) * r / 2 ≤ c - (n : K) * r / 2 ∧
      c + (n : K) * r / 2 ≤ c + r / 2 * (z : K) + (N : K) * r / 2) ↔ |z| ≤ N - n := by
    rw [abs_le]
    constructor
    · rintro ⟨h1, h2⟩
      constructor
      · have : r * ((-(N - n) : Int) : K) ≤ r * z := by push_cast; linarith
        exact_mod_cast le_of_mul_le_mul_left this hr
      · have : r * (z : K) ≤ r * ((N - n : Int) : K) := by push_cast; linarith
        exact_mod_cast le_of_mul_le_mul_left this hr
    · rintro ⟨h1, h2⟩
      have h1' : ((-(N - n) : Int) : K) ≤ z := by exact_mod_cast h1
      have h2' : (z : K) ≤ ((N - n : Int) : K) := by exact_mod_cast h2
      have h1'' := mul_le_mul_of_nonneg_left h1' hr.le
      have h2'' := mul_le_mul_of_nonneg_left h2' hr.le
      push_cast at h1'' h2''
      constructor <;> linarith
  rw [h2]
  by_cases hbad : N = n + 1 ∧ r ≤ b - a
  · rw [if_pos hbad] at key
    refine iff_of_false ?_ (fun h => h hbad)
    rw [key, abs_of_pos (by norm_num)]
    obtain ⟨h1, -⟩ := hbad
    omega
  · rw [if_neg hbad] at key
    exact iff_of_true key hbad

/-- C35/C36: exactly when the old extent survives. It does unless, on some axis, the map grows by exactly one cell
although the other map sticks out at least one cell more at the lower end than at the upper end. -/
theorem C36_old_extent_kept_iff {m : CostMap K} (h : m.Geo) (hc : m.Coherent)
    (hb : ∀ l ∈ m.basicLayers, m.exists l = true) (other : CostMap K) :
    ∃ m', extendToInclude other m = (.ok true, m') ∧
      ((∀ p, m.Covers p → m'.Covers p) ↔
        ¬ (m'.size.x = m.size.x + 1 ∧ m.resolution ≤ under m.position.x m.length.x other.position.x other.length.x -
            over m.position.x m.length.x other.position.x other.length.x) ∧
        ¬ (m'.size.y = m.size.y + 1 ∧ m.resolution ≤ under m.position.y m.length.y other.position.y other.length.y -
            over m.position.y m.length.y other.position.y other.length.y)) := by
  obtain ⟨m', e, hg', -, -, -, hres, hsz, hpos, -, -⟩ := extend_spec h hc hb other
  refine ⟨m', e, ?_⟩
  have hx := axis_kept (c := m.position.x) (N := m'.size.x) h.res_pos h.size_x
    (over_nonneg m.position.x m.length.x other.position.x other.length.x)
    (under_nonneg m.position.x m.length.x other.position.x other.length.x) (by rw [hsz, ← h.len_x]; rfl)
  have hy := axis_kept (c := m.position.y) (N := m'.size.y) h.res_pos h.size_y
    (over_nonneg m.position.y m.length.y other.position.y other.length.y)
    (under_nonneg m.position.y m.length.y other.position.y other.length.y) (by rw [hsz, ← h.len_y]; rfl)
  obtain ⟨lx, ly⟩ := Geo.length_pos h
  rw [covers_subset_iff lx ly, ← hx, ← hy, hpos, hg'.len_x, hg'.len_y, h.len_x, h.len_y, hres, hsz]
  simp only [extCenter, h.len_x, h.len_y]

/-- One axis, extension by whole cells. -/
theorem axis_whole {r c : K} {n a b : Int} (hr : 0 < r) (hn : 0 < n) (ha : 0 ≤ a) (hb : 0 ≤ b)
    (hab : b ≤ a ∨ (a + b) % 2 = 0) :
    roundHalfAway (((n : K) * r + (a : K) * r + (b : K) * r) / r) = n + a + b ∧
    alignAxis r (c + ((a : K) * r - (b : K) * r) / 2) c (n + a + b) n = c + ((a : K) - b) / 2 * r := by
  have e1 : ((n : K) * r + (a : K) * r + (b : K) * r) / r = n + a + b := by field_simp
  have e2 : (c + ((a : K) * r - (b : K) * r) / 2 - c) / r = ((a : K) - b) / 2 := by field_simp; ring
  rw [e1, alignAxis_halfCells hr, e2, halfCells_whole n a b hn ha hb, if_neg (by omega)]
  refine ⟨round_whole n a b hn ha hb, ?_⟩
  push_cast
  ring

/-- C35, the true part: if on each axis the other map sticks out by whole cells, `a` above and `b` below, and `a ≥ b`
or `a + b` is even, then the new map is exactly the union box: it grows by `a + b` cells and covers both maps. What is
missing is every other case: `C35_false` (whole cells, more and oddly many below) and `C35_false_unaligned`. -/
theorem C35_covers_both_partial {m other : CostMap K} (h : m.Geo) (hc : m.Coherent)
    (hb : ∀ l ∈ m.basicLayers, m.exists l = true) {ax bx ay b_y : ℕ}
    (hax : over m.position.x m.length.x other.position.x other.length.x = ax * m.resolution)
    (hbx : under m.position.x m.length.x other.position.x other.length.x = bx * m.resolution)
    (hay : over m.position.y m.length.y other.position.y other.length.y = ay * m.resolution)
    (hby : under m.position.y m.length.y other.position.y other.length.y = b_y * m.resolution)
    (hx : bx ≤ ax ∨ (ax + bx) % 2 = 0) (hy : b_y ≤ ay ∨ (ay + b_y) % 2 = 0) :
    ∃ m', extendToInclude other m = (.ok true, m') ∧ m'.size = ⟨m.size.x + ax + bx, m.size.y + ay + b_y⟩ ∧
      (∀ p, m.Covers p → m'.Covers p) ∧ (∀ p, other.Covers p → m'.Covers p) := by
  obtain ⟨m', e, hg', -, -, -, hres, hsz, hpos, -, -⟩ := extend_spec h hc hb other
  obtain ⟨sx, cx⟩ := axis_whole (c := m.position.x) (a := ax) (b := bx) h.res_pos h.size_x (by omega) (by omega)
    (by omega)
  obtain ⟨sy, cy⟩ := axis_whole (c := m.position.y) (a := ay) (b := b_y) h.res_pos h.size_y (by omega) (by omega)
    (by omega)
  simp only [Int.cast_natCast] at sx sy cx cy
  have hsx : m'.size.x = m.size.x + ax + bx := by
    rw [hsz]; simp only [extSize, hax, hbx]; rw [h.len_x]; exact sx
  have hsy : m'.size.y = m.size.y + ay + b_y := by
    rw [hsz]; simp only [extSize, hay, hby]; rw [h.len_y]; exact sy
  have hpx : m'.position.x = m.position.x + (ax * m.resolution - bx * m.resolution) / 2 := by
    rw [hpos]; simp only [extCenter]; rw [← hsz, hsx, hax, hbx, cx]; ring
  have hpy : m'.position.y = m.position.y + (ay * m.resolution - b_y * m.resolution) / 2 := by
    rw [hpos]; simp only [extCenter]; rw [← hsz, hsy, hay, hby, cy]; ring
  have hlx : m'.length.x = m.length.x + ax * m.resolution + bx * m.resolution := by
    rw [hg'.len_x, hsx, hres, h.len_x]; push_cast; ring
  have hly : m'.length.y = m.length.y + ay * m.resolution + b_y * m.resolution := by
    rw [hg'.len_y, hsy, hres, h.len_y]; push_cast; ring
  obtain ⟨p1, p2⟩ := Geo.length_pos h
  have hr := h.res_pos
  have n1 : (0 : K) ≤ ax * m.resolution := by positivity
  have n2 : (0 : K) ≤ bx * m.resolution := by positivity
  have n3 : (0 : K) ≤ ay * m.resolution := by positivity
  have n4 : (0 : K) ≤ b_y * m.resolution := by positivity
  have o1 := le_max_right 0 ((other.position.x + other.length.x / 2) - (m.position.x + m.length.x / 2))
  have o2 := le_max_right 0 ((m.position.x - m.length.x / 2) - (other.position.x - other.length.x / 2))
  have o3 := le_max_right 0 ((other.position.y + other.length.y / 2) - (m.position.y + m.length.y / 2))
  have o4 := le_max_right 0 ((m.position.y - m.length.y / 2) - (other.position.y - other.length.y / 2))
  unfold over at hax hay
  unfold under at hbx hby
  rw [hax] at o1
  rw [hbx] at o2
  rw [hay] at o3
  rw [hby] at o4
  clear cx cy sx sy hax hbx hay hby
  generalize (ax : K) * m.resolution = A at *
  generalize (bx : K) * m.resolution = B at *
  generalize (ay : K) * m.resolution = C at *
  generalize (b_y : K) * m.resolution = D at *
  refine ⟨m', e, by ext <;> simp [hsx, hsy], ?_, ?_⟩
  · intro p hp
    unfold Covers at hp ⊢
    rw [hpx, hpy, hlx, hly]
    obtain ⟨⟨a1, a2⟩, a3, a4⟩ := hp
    refine ⟨⟨?_, ?_⟩, ?_, ?_⟩ <;> linarith
  · intro p hp
    unfold Covers at hp ⊢
    rw [hpx, hpy, hlx, hly]
    obtain ⟨⟨a1, a2⟩, a3, a4⟩ := hp
    refine ⟨⟨?_, ?_⟩, ?_, ?_⟩ <;> linarith

/-- A map of `n × n` unit cells around `(c, 0)` with the single layer `a`, all 9. -/
def Demo.unit (n : ℚ) (c : ℚ) : CostMap ℚ :=
  (CostMap.addConst "a" 9 (CostMap.setGeometry ⟨n, n⟩ 1 ⟨c, 0⟩ (CostMap.new [])).2).2

theorem Demo.unit5_geo : (Demo.unit 5 0).Geo where
  res_pos := by decide +kernel
  size_x := by decide +kernel
  size_y := by decide +kernel
  len_x := by decide +kernel
  len_y := by decide +kernel
  start := by decide +kernel

theorem Demo.unit_coherent (n c : ℚ) : (Demo.unit n c).Coherent :=
  addConst_coherent "a" 9 _ (setGeometry_coherent _ _ _ _ (new_coherent (by simp)))

/-- Extending `[-2.5, 2.5]` by the aligned map `[-0.5, 3.5]` gives `[-2.5, 3.5]`. -/
example : ∃ m', extendToInclude (Demo.unit 4 (3 / 2)) (Demo.unit 5 0) = (.ok true, m') ∧ m'.size = ⟨6, 5⟩ ∧
    (∀ p, (Demo.unit 5 0).Covers p → m'.Covers p) ∧ (∀ p, (Demo.unit 4 (3 / 2)).Covers p → m'.Covers p) := by
  obtain ⟨m', h⟩ := C35_covers_both_partial (m := Demo.unit 5 0) (other := Demo.unit 4 (3 / 2)) (ax := 1) (bx := 0)
    (ay := 0) (b_y := 0) Demo.unit5_geo (Demo.unit_coherent _ _) (by decide +kernel) (by decide +kernel)
    (by decide +kernel) (by decide +kernel) (by decide +kernel) (by decide) (by decide)
  have : (Demo.unit 5 0).size = ⟨5, 5⟩ := by decide +kernel
  rw [this] at h
  exact ⟨m', h⟩

/-- C35 and C36 are false: extending `[-2.5, 2.5]` by the aligned map `[-3.5, -0.5]` gives `[-1.5, 4.5]`. The positions
`(-3, 0)` of the other map and `(-2, 0)` of this map end up outside, with the cost this map held there. -/
theorem C35_false : ∃ (m other m' : CostMap ℚ) (p q : Vec ℚ), m.Geo ∧ m.Coherent ∧ other.Geo ∧ other.Coherent ∧
    extendToInclude other m = (.ok true, m') ∧ other.Covers p ∧ ¬ m'.Covers p ∧ m.Covers q ∧ ¬ m'.Covers q ∧
    m.atPosition "a" q = .ok 9 ∧ m'.atPosition "a" q = .thrown .outOfRange := by
  refine ⟨Demo.unit 5 0, Demo.unit 3 (-2), (extendToInclude (Demo.unit 3 (-2)) (Demo.unit 5 0)).2, ⟨-3, 0⟩, ⟨-2, 0⟩,
    Demo.unit5_geo, Demo.unit_coherent _ _, ?_, Demo.unit_coherent _ _, Prod.ext (by decide +kernel) rfl,
    (C11_inside_iff _ _).mp (by decide +kernel), ?_, (C11_inside_iff _ _).mp (by decide +kernel), ?_,
    by decide +kernel, by decide +kernel⟩
  · exact ⟨by decide +kernel, by decide +kernel, by decide +kernel, by decide +kernel, by decide +kernel,
      by decide +kernel⟩
  · rw [← C11_inside_iff]; decide +kernel
  · rw [← C11_inside_iff]; decide +kernel

/-- C36 is false: data of the old extent is lost. -/
theorem C36_false : ∃ (m other : CostMap ℚ) (q : Vec ℚ), m.Geo ∧ m.Coherent ∧ m.Covers q ∧
    m.atPosition "a" q = .ok 9 ∧ (extendToInclude other m).1 = .ok true ∧
    (extendToInclude other m).2.atPosition "a" q ≠ .ok 9 :=
  ⟨Demo.unit 5 0, Demo.unit 3 (-2), ⟨-2, 0⟩, Demo.unit5_geo, Demo.unit_coherent _ _,
    (C11_inside_iff _ _).mp (by decide +kernel), by decide +kernel, by decide +kernel, by decide +kernel⟩

/-- C35 also fails above when the other map is not aligned: the length is rounded to whole cells, and for
`[-0.1, 2.9]` it is rounded down, so `(2.8, 0)` stays outside. -/
theorem C35_false_unaligned : ∃ (m other m' : CostMap ℚ) (p : Vec ℚ), m.Geo ∧ m.Coherent ∧ other.Geo ∧
    extendToInclude other m = (.ok true, m') ∧ other.Covers p ∧ ¬ m'.Covers p := by
  refine ⟨Demo.unit 5 0, Demo.unit 3 (7 / 5), (extendToInclude (Demo.unit 3 (7 / 5)) (Demo.unit 5 0)).2,
    ⟨14 / 5, 0⟩, Demo.unit5_geo, Demo.unit_coherent _ _, ?_, Prod.ext (by decide +kernel) rfl,
    (C11_inside_iff _ _).mp (by decide +kernel), ?_⟩
  · exact ⟨by decide +kernel, by decide +kernel, by decide +kernel, by decide +kernel, by decide +kernel,
      by decide +kernel⟩
  · rw [← C11_inside_iff]; decide +kernel

/-- C36, why the basic layers must exist: otherwise `isValid` throws after the map has been cleared and resized, and
the data is gone. -/
theorem C36_missing_basic_layer_loses_data : ∃ (m other : CostMap ℚ) (q : Vec ℚ), m.Geo ∧ m.Coherent ∧
    m.atPosition "a" q = .ok 9 ∧ (extendToInclude other m).1 = .thrown .outOfRange ∧
    (extendToInclude other m).2.atPosition "a" q = .ok NO_INFORMATION :=
  ⟨(Demo.unit 5 0).setBasicLayers ["z"], Demo.unit 4 (3 / 2), ⟨0, 0⟩,
    ⟨Demo.unit5_geo.res_pos, Demo.unit5_geo.size_x, Demo.unit5_geo.size_y, Demo.unit5_geo.len_x, Demo.unit5_geo.len_y,
      Demo.unit5_geo.start⟩,
    ⟨(Demo.unit_coherent 5 0).nodup, (Demo.unit_coherent 5 0).mem_iff, (Demo.unit_coherent 5 0).dims⟩,
    by decide +kernel, by decide +kernel, by decide +kernel⟩

/-- C34 with extension: a position of both extents whose cell was valid keeps the costs of all its layers. -/
theorem C34_with_extension {m other : CostMap K} (h : m.Geo) (hc : m.Coherent)
    (hb : ∀ l ∈ m.basicLayers, m.exists l = true) (all : Bool) (ls : List String) {p : Vec K} (hp : m.Covers p)
    (hv : m.ValidCell (m.getIndex p).1) {l : String} (hl : m.exists l = true)
    (hp' : (addDataFrom other true false all ls m).2.Covers p) :
    (addDataFrom other true false all ls m).2.atPosition l p = m.atPosition l p := by
  obtain ⟨m1, e1, hg1, hc1, hm1, hl1, -, -, -, -, hat1⟩ := extend_spec h hc hb other
  rw [C33_extension_then_merge, Act.bind_ok e1] at hp' ⊢
  have hkg : SameGeometry m1 (addDataFrom other false false all ls m1).2 := by
    have key : Act.Keeps (SameGeometry m1) (addDataFrom other false false all ls) := by
      unfold addDataFrom
      simp only [Bool.false_eq_true, if_false]
      refine (Act.Keeps.pure true).bind fun _ => ?_
      refine (Act.Keeps.forEach (fun l => ?_) _).bind fun _ => ?_
      · intro s hs
        unfold addMissing addConst add
        repeat' split
        all_goals exact ⟨hs.length, hs.resolution, hs.position, hs.size, hs.startIndex⟩
      · refine (forCells_keeps (fun i => ?_)).bind fun _ => Act.Keeps.pure true
        refine Act.Keeps.bind (fun _ h => h) fun v => ?_
        split
        · exact Act.Keeps.pure ()
        · intro s hs
          simp only
          split
          · exact hs
          · split
            · exact hs
            · refine Act.Keeps.forEach (fun l => ?_) _ s hs
              unfold mergeLayer
              refine (Act.Keeps.lift _).bind fun v => ?_
              split
              · exact Act.Keeps.pure ()
              · refine (Act.Keeps.lift _).bind fun c => ?_
                intro t ht
                have := (setAt_shape l i c t).geo
                exact ⟨this.length.trans ht.length, this.resolution.trans ht.resolution,
                  this.position.trans ht.position, this.size.trans ht.size, this.startIndex.trans ht.startIndex⟩
    exact key m1 ⟨rfl, rfl, rfl, rfl, rfl⟩
  have hp1 : m1.Covers p := by
    unfold Covers at hp' ⊢
    rw [← hkg.position, ← hkg.length]; exact hp'
  have hmi : m.isInside p = true := (C11_inside_iff _ _).mpr hp
  have hm1i : m1.isInside p = true := (C11_inside_iff _ _).mpr hp1
  have hm2i : (addDataFrom other false false all ls m1).2.isInside p = true := (C11_inside_iff _ _).mpr hp'
  have hsame : ∀ l, m.exists l = true → m1.at l (m1.getIndex p).1 = m.at l (m.getIndex p).1 := by
    intro l hl
    rw [← atPosition_inside hm1i, ← atPosition_inside hmi]
    exact (hat1 l hl p hp1).1 hp
  have hv1 : m1.ValidCell (m1.getIndex p).1 := by
    obtain ⟨hne, hall⟩ := hv
    refine ⟨by rw [hm1.basicLayers]; exact hne, fun l hl => ?_⟩
    rw [hm1.basicLayers] at hl
    rw [hsame l (hb l hl)]
    exact hall l hl
  obtain ⟨c, hcv⟩ := hc.at_ok hl (getIndex_in h hmi)
  rw [atPosition_inside hm2i, getIndex_congr hkg, atPosition_inside hmi, hcv]
  refine C34_valid_cells_are_kept_partial hc1 hv1 all ls ?_
  rw [hsame l hl, hcv]

example : (addDataFrom Demo.small true false true [] Demo.base).2.atPosition "a" ⟨1, -1⟩ =
    Demo.base.atPosition "a" ⟨1, -1⟩ := by
  refine C34_with_extension Demo.base_geo Demo.base_coherent (by decide +kernel) true []
    ((C11_inside_iff _ _).mp (by decide +kernel)) ?_ (by decide +kernel) ((C11_inside_iff _ _).mp (by decide +kernel))
  refine ⟨by decide +kernel, fun l hl => ?_⟩
  have : l = "a" := by
    have : Demo.base.basicLayers = ["a"] := by decide +kernel
    rw [this] at hl; simpa using hl
  subst this
  exact ⟨22, by decide +kernel, by decide +kernel⟩

end CostMapModel

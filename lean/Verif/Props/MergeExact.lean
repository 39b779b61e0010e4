import Verif.Props.Merge

/-!
# C33 and C34: layers that the other map lacks, and exactly which costs are replaced
-/

set_option linter.unusedSectionVars false

namespace CostMapModel
open CostMap
variable {K : Type} [Field K] [LinearOrder K] [IsStrictOrderedRing K] [FloorRing K]

/-- Copying the layers of one cell, one of which the other map lacks. -/
theorem mergeLayers_missing {other : CostMap K} (h : other.Geo) (hoc : other.Coherent) {p : Vec K} (hp : other.isInside p = true)
    {i : Idx} : ∀ {ls : List String} {m : CostMap K}, (∃ l ∈ ls, other.exists l = false) → m.Coherent → i.In m.size →
    (∀ l ∈ ls, m.exists l = true) →
    ∃ m', Act.forEach (mergeLayer other i (other.getIndex p).1) ls m = (.thrown .outOfRange, m') ∧ SameShape m m' ∧
      ∀ l j, j ≠ i → m'.at l j = m.at l j
  | [], _, hex, _, _, _ => by simp at hex
  | l :: ls, m, hex, hc, hi, he => by
    by_cases hl : other.exists l = true
    · obtain ⟨m1, e1, s1, a1, -⟩ := forEach_layers (w := validAt other p) (body := mergeLayer other i (other.getIndex p).1)
        (ls := [l]) hc hi (fun l' hl' s => by
          rw [List.mem_singleton] at hl'; subst hl'
          exact mergeLayer_eq h hoc hp i hl s) (fun l' hl' => he l' (by rw [List.mem_singleton] at hl'; simp [hl']))
      have step : mergeLayer other i (other.getIndex p).1 l m = (.ok (), m1) := by
        simp only [Act.forEach, Act.bind, Act.pure] at e1
        rcases e : mergeLayer other i (other.getIndex p).1 l m with ⟨r, s⟩
        rw [e] at e1
        cases r <;> simp_all
      obtain ⟨m2, e2, s2, a2⟩ := mergeLayers_missing h hoc hp (i := i) (ls := ls) (m := m1)
        (by
          obtain ⟨l', h1, h2⟩ := hex
          rcases List.mem_cons.1 h1 with rfl | h1
          · rw [hl] at h2; cases h2
          · exact ⟨l', h1, h2⟩) (s1.coherent hc) (by rw [s1.geo.size]; exact hi)
        (fun l' hl' => at_of_ne_exists s1 (he l' (by simp [hl'])))
      refine ⟨m2, ?_, s1.trans s2, fun l j hj => (a2 l j hj).trans (a1 l j hj)⟩
      rw [Act.forEach, Act.bind_ok step, e2]
    · rw [Bool.not_eq_true] at hl
      refine ⟨m, ?_, SameShape.refl m, fun _ _ _ => rfl⟩
      rw [Act.forEach]
      simp [Act.bind, mergeLayer, Act.lift, isValidLayer, at_none (exists_false_iff.mp hl), Res.map]

/-- C33. A requested layer that the other map lacks: the call throws `std::out_of_range` exactly when some cell that may be overwritten has
its centre in the other map. Otherwise it succeeds, and no cell of an old layer has changed; if it throws, nothing but costs of the
requested layers in one such cell has. -/
theorem C33_missing_layer {m other : CostMap K} (hg : m.Geo) (hc : m.Coherent) (hog : other.Geo)
    (hoc : other.Coherent) (overwrite all : Bool) (ls req : List String) (hreq : req = if all then other.layers else ls)
    (hls : ∃ l ∈ req, other.exists l = false) (hb : ∀ l ∈ m.basicLayers, m.exists l = true ∨ l ∈ req) :
    ((∃ i p, m.getPosition i = some p ∧ other.Covers p ∧ (overwrite = true ∨ ¬ m.ValidCell i)) →
      ∃ m' i p, addDataFrom other false overwrite all ls m = (.thrown .outOfRange, m') ∧ SameGeometry m m' ∧ SameMeta m m' ∧
        m.getPosition i = some p ∧ other.Covers p ∧ (overwrite = true ∨ ¬ m.ValidCell i) ∧
        ∀ l j, m.exists l = true → j ≠ i → m'.at l j = m.at l j) ∧
    ((¬ ∃ i p, m.getPosition i = some p ∧ other.Covers p ∧ (overwrite = true ∨ ¬ m.ValidCell i)) →
      ∃ m', addDataFrom other false overwrite all ls m = (.ok true, m') ∧ SameGeometry m m' ∧ SameMeta m m' ∧
        ∀ l j, m.exists l = true → m'.at l j = m.at l j) := by
  classical
  obtain ⟨m1, e1, hc1, hg1, hm1, hx1, ha1, hn1, -⟩ := addMissing_spec req hc hg.size_x.le hg.size_y.le
  have hgeo1 := hg1.geo hg
  have hvc : ∀ i : Idx, i.In m.size → (m1.ValidCell i ↔ m.ValidCell i) := by
    intro i hi
    unfold ValidCell
    rw [hm1.basicLayers]
    constructor
    · rintro ⟨h1, h2⟩
      refine ⟨h1, fun l hl => ?_⟩
      obtain ⟨c, hc', hne⟩ := h2 l hl
      by_cases hex : m.exists l = true
      · rw [ha1 l i hex] at hc'; exact ⟨c, hc', hne⟩
      · have hmem := (hb l hl).resolve_left hex
        rw [Bool.not_eq_true] at hex
        rw [hn1 l i hex hmem hi] at hc'
        cases hc'
        exact absurd rfl hne
    · rintro ⟨h1, h2⟩
      refine ⟨h1, fun l hl => ?_⟩
      obtain ⟨c, hc', hne⟩ := h2 l hl
      have hex : m.exists l = true := by
        by_contra h
        rw [Bool.not_eq_true] at h
        rw [at_none (exists_false_iff.mp h)] at hc'; cases hc'
      exact ⟨c, by rw [ha1 l i hex]; exact hc', hne⟩
  -- one cell
  have cell : ∀ i : Idx, i.In m.size → ∃ p, m.getPosition i = some p ∧
      ((other.Covers p ∧ (overwrite = true ∨ ¬ m.ValidCell i)) →
        ∃ m', mergeCell other overwrite req i m1 = (.thrown .outOfRange, m') ∧ SameShape m1 m' ∧
          ∀ l j, j ≠ i → m'.at l j = m1.at l j) ∧
      (¬ (other.Covers p ∧ (overwrite = true ∨ ¬ m.ValidCell i)) → mergeCell other overwrite req i m1 = (.ok (), m1)) := by
    intro i hi
    have hi1 : i.In m1.size := by rw [hg1.size]; exact hi
    obtain ⟨p, hp⟩ : ∃ p, m.getPosition i = some p := by
      cases e : m.getPosition i with
      | some p => exact ⟨p, rfl⟩
      | none => rw [getPosition_eq hi] at e; cases e
    obtain ⟨b, hv, hv'⟩ := isValid_eq (m := m1) (i := i) (fun l hl =>
      hc1.at_ok ((hx1 l).mpr (hb l (by rw [← hm1.basicLayers]; exact hl))) hi1)
    have hv1 : b = true ↔ m.ValidCell i := hv'.trans (hvc i hi)
    have hp1 : m1.getPosition i = some p := (getPosition_congr hg1 i).trans hp
    have read : ∀ (g : Bool → Act (CostMap K) Unit), Act.bind (Act.read fun m => m.isValid i) g m1 = g b m1 := by
      intro g
      unfold Act.bind Act.read
      simp only [hv]
    refine ⟨p, hp, fun ⟨h1, h2⟩ => ?_, fun h => ?_⟩
    · have hin : other.isInside p = true := (C11_inside_iff _ _).mpr h1
      obtain ⟨m', e, s, a⟩ := mergeLayers_missing hog hoc hin (i := i) hls hc1 hi1 (fun l hl => (hx1 l).mpr (.inr hl))
      refine ⟨m', ?_, s, a⟩
      unfold mergeCell
      rw [read, if_neg (by
        rcases h2 with h2 | h2
        · simp [h2]
        · rw [← hv1] at h2; simp [h2])]
      simp only [hp1, hin, Bool.not_true, Bool.false_eq_true, if_false]
      exact e
    · unfold mergeCell
      rw [read]
      by_cases hs : (b && !overwrite) = true
      · rw [if_pos hs]; rfl
      · rw [if_neg hs]
        have hov : overwrite = true ∨ ¬ m.ValidCell i := by
          rw [← hv1]
          cases b <;> cases overwrite <;> simp_all
        have hout : other.isInside p = false := by
          rw [← Bool.not_eq_true]
          exact fun hin => h ⟨(C11_inside_iff _ _).mp hin, hov⟩
        simp only [hp1, hout, Bool.not_false, if_true]
  have run : ∀ r, forCells (mergeCell other overwrite req) m1 = r →
      addDataFrom other false overwrite all ls m = match r with
        | (.ok _, s) => (.ok true, s)
        | (.thrown e, s) => (.thrown e, s)
        | (.assertFail, s) => (.assertFail, s)
        | (.ub, s) => (.ub, s)
        | (.outOfFuel, s) => (.outOfFuel, s) := by
    intro r hr
    unfold addDataFrom
    rw [← hreq]
    simp only [Bool.false_eq_true, if_false]
    rw [Act.bind_ok (show (Act.pure true : Act (CostMap K) Bool) m = (.ok true, m) from rfl), Act.bind_ok e1]
    unfold Act.bind
    rw [hr]
    rcases r with ⟨r, s⟩
    cases r <;> rfl
  rw [forCells_eq hgeo1.start] at run
  have hmem : ∀ i ∈ m1.cells, i.In m.size := fun i hi => by
    rw [← hg1.size]; exact (mem_cells hgeo1.start).mp hi
  constructor
  · rintro ⟨i, p, h1, h2, h3⟩
    have hi : i.In m.size := by
      by_contra h
      rw [getPosition_none h] at h1; cases h1
    have hic : i ∈ m1.cells := (mem_cells hgeo1.start).mpr (by rw [hg1.size]; exact hi)
    have loop : ∀ xs : List Idx, (∀ j ∈ xs, j.In m.size) → i ∈ xs → ∃ m' k p, Act.forEach (mergeCell other overwrite req) xs m1 =
        (.thrown .outOfRange, m') ∧ SameShape m1 m' ∧ m.getPosition k = some p ∧ other.Covers p ∧
        (overwrite = true ∨ ¬ m.ValidCell k) ∧ ∀ l j, j ≠ k → m'.at l j = m1.at l j := by
      intro xs
      induction xs with
      | nil => intro _ h; simp at h
      | cons k xs ih =>
        intro hin hi'
        obtain ⟨q, hq, c1, c2⟩ := cell k (hin k (by simp))
        by_cases hk : other.Covers q ∧ (overwrite = true ∨ ¬ m.ValidCell k)
        · obtain ⟨m', e, s, a⟩ := c1 hk
          refine ⟨m', k, q, ?_, s, hq, hk.1, hk.2, a⟩
          rw [Act.forEach]
          unfold Act.bind
          rw [e]
        · have hne : i ≠ k := by
            rintro rfl
            rw [h1] at hq; cases hq
            exact hk ⟨h2, h3⟩
          rw [Act.forEach, Act.bind_ok (c2 hk)]
          exact ih (fun j hj => hin j (by simp [hj])) ((List.mem_cons.1 hi').resolve_left hne)
    obtain ⟨m', k, q, e, s, b1, b2, b3, a⟩ := loop m1.cells hmem hic
    refine ⟨m', k, q, run _ e, ?_, ?_, b1, b2, b3, fun l j hl hj => (a l j hj).trans (ha1 l j hl)⟩
    · have := s.geo
      exact ⟨this.length.trans hg1.length, this.resolution.trans hg1.resolution, this.position.trans hg1.position,
        this.size.trans hg1.size, this.startIndex.trans hg1.startIndex⟩
    · have := s.info
      exact ⟨this.frameId.trans hm1.frameId, this.timestamp.trans hm1.timestamp,
        this.basicLayers.trans hm1.basicLayers⟩
  · intro hno
    have loop : ∀ xs : List Idx, (∀ j ∈ xs, j.In m.size) → Act.forEach (mergeCell other overwrite req) xs m1 = (.ok (), m1) := by
      intro xs
      induction xs with
      | nil => intro _; rfl
      | cons k xs ih =>
        intro hin
        obtain ⟨q, hq, -, c2⟩ := cell k (hin k (by simp))
        rw [Act.forEach, Act.bind_ok (c2 fun hk => hno ⟨k, q, hq, hk.1, hk.2⟩)]
        exact ih fun j hj => hin j (by simp [hj])
    exact ⟨m1, run _ (loop _ hmem), hg1, hm1, fun l j hl => ha1 l j hl⟩

/-- C34. Without overwriting, exactly these costs of old layers stay: those in cells that are valid in the basic layers, in layers that are not
requested, and where the other map has no valid cost or the same one. -/
theorem C34_kept_iff {m other : CostMap K} (hg : m.Geo) (hc : m.Coherent) (hog : other.Geo)
    (hoc : other.Coherent) (all : Bool) (ls req : List String) (hreq : req = if all then other.layers else ls)
    (hls : ∀ l ∈ req, other.exists l = true) (hb : ∀ l ∈ m.basicLayers, m.exists l = true ∨ l ∈ req) :
    ∃ m', addDataFrom other false false all ls m = (.ok true, m') ∧
      ∀ l i p c, m.getPosition i = some p → m.at l i = .ok c →
        (m'.at l i = .ok c ↔ m.ValidCell i ∨ l ∉ req ∨ ∀ d, other.atPosition l p = .ok d → d = NO_INFORMATION ∨ d = c) := by
  obtain ⟨m', e, -, -, -, -, h⟩ := C33_merges_cell_by_cell hg hc hog hoc false all ls req hreq hls hb
  refine ⟨m', e, fun l i p c hp hat => ?_⟩
  obtain ⟨h1, h2⟩ := h l i p hp
  have hex : m.exists l = true := by
    by_contra hn
    rw [Bool.not_eq_true] at hn
    rw [at_none (exists_false_iff.mp hn)] at hat; cases hat
  constructor
  · intro hk
    by_contra hn
    push Not at hn
    obtain ⟨hv, hl, d, hd, hd1, hd2⟩ := hn
    rw [h1 d hl (.inr hv) hd hd1] at hk
    exact hd2 (Res.ok.inj hk)
  · intro hk
    by_cases hrep : l ∈ req ∧ (false = true ∨ ¬ m.ValidCell i) ∧ ∃ d, other.atPosition l p = .ok d ∧ d ≠ NO_INFORMATION
    · obtain ⟨hl, hv, d, hd, hne⟩ := hrep
      rcases hk with hk | hk | hk
      · rcases hv with hv | hv
        · cases hv
        · exact absurd hk hv
      · exact absurd hl hk
      · rcases hk d hd with hk | hk
        · exact absurd hk hne
        · rw [h1 d hl hv hd hne, hk]
    · rw [(h2 hrep).1 hex, hat]

example : ∃ m' i p, addDataFrom Demo.rotated false true false ["a", "z"] Demo.base = (.thrown .outOfRange, m') ∧
    Demo.base.getPosition i = some p ∧ Demo.rotated.Covers p := by
  obtain ⟨m', i, p, h1, -, -, h2, h3, -⟩ := (C33_missing_layer Demo.base_geo Demo.base_coherent Demo.rotated_geo Demo.rotated_coherent
    true false ["a", "z"] _ rfl ⟨"z", by simp, by decide +kernel⟩ (fun l hl => .inl (by
      have : Demo.base.basicLayers = ["a"] := by decide +kernel
      rw [this, List.mem_singleton] at hl; subst hl; decide +kernel))).1
    ⟨⟨1, 1⟩, ⟨3 / 2, -3 / 4⟩, by decide +kernel, (C11_inside_iff _ _).mp (by decide +kernel), .inl rfl⟩
  exact ⟨m', i, p, h1, h2, h3⟩

example : ∃ m', addDataFrom Demo.small false false true [] Demo.base = (.ok true, m') ∧ m'.at "a" ⟨1, 1⟩ = .ok 11 := by
  obtain ⟨m', h1, h2⟩ := C34_kept_iff Demo.base_geo Demo.base_coherent Demo.small_geo Demo.small_coherent true [] _ rfl
    (fun l hl => (Demo.small_coherent.mem_iff l).mp hl) (fun l hl => .inl (by
      have : Demo.base.basicLayers = ["a"] := by decide +kernel
      rw [this, List.mem_singleton] at hl; subst hl; decide +kernel))
  refine ⟨m', h1, (h2 "a" ⟨1, 1⟩ ⟨3 / 2, -3 / 4⟩ 11 (by decide +kernel) (by decide +kernel)).2 (.inl ⟨by decide +kernel, fun l hl => ?_⟩)⟩
  have : Demo.base.basicLayers = ["a"] := by decide +kernel
  rw [this, List.mem_singleton] at hl; subst hl
  exact ⟨11, by decide +kernel, by decide +kernel⟩


end CostMapModel

import Verif.Lemmas.Access
import Verif.Props.Demo

/-!
# The layer container: C02 - C09

Every statement speaks about results of API calls: `get`, `at`, `exists`, `layers` (= `getLayers()`),
`basicLayers`, and the geometry getters.
-/

set_option linter.unusedSectionVars false

namespace CostMapModel
open CostMap
variable {K : Type} [Field K] [LinearOrder K] [IsStrictOrderedRing K] [FloorRing K]

/-! ## C02 add -/

/-- C02. `add(l, M)` for a matrix of the size of the map. -/
theorem C02_add_is_keyed_update (m : CostMap K) (l : String) (a : Mat Cost)
    (hr : (a.rows : Int) = m.size.x) (hc : (a.cols : Int) = m.size.y) :
    ∃ m', add l a m = (.ok (), m') ∧
      m'.get l = .ok a ∧
      (∀ l', l' ≠ l → m'.get l' = m.get l') ∧
      m'.layers = (if m.exists l then m.layers else m.layers ++ [l]) ∧
      SameGeometry m m' ∧ SameMeta m m' := by
  by_cases he : m.exists l = true
  · refine ⟨m.setData l a, by simp [add, hr, hc, he], by simp [get_setData], ?_, by simp [he, setData],
      ⟨rfl, rfl, rfl, rfl, rfl⟩, ⟨rfl, rfl, rfl⟩⟩
    intro l' h; simp [get_setData, h]
  · refine ⟨{ m.setData l a with layers := m.layers ++ [l] }, by simp [add, hr, hc, he], ?_, ?_,
      by simp [he], ⟨rfl, rfl, rfl, rfl, rfl⟩, ⟨rfl, rfl, rfl⟩⟩
    · simp [CostMap.get, setData]
    · intro l' h; simp [CostMap.get, setData, h]

/-- C02, the other direction: `add` succeeds only for a matrix of the size of the map; otherwise the
assertion fails before anything is changed. -/
theorem C02_add_rejects_wrong_size (m : CostMap K) (l : String) (a : Mat Cost)
    (h : ¬ ((a.rows : Int) = m.size.x ∧ (a.cols : Int) = m.size.y)) :
    add l a m = (.assertFail, m) := by
  unfold add
  by_cases hr : m.size.x = (a.rows : Int)
  · by_cases hc : m.size.y = (a.cols : Int)
    · exact absurd ⟨hr.symm, hc.symm⟩ h
    · simp [hr, hc]
  · simp [hr]

/-- C02 for the constant overload `add(l, value)`: every cell of the new layer reads `value`. -/
theorem C02_add_constant (m : CostMap K) (l : String) (v : Cost) (hx : 0 ≤ m.size.x) (hy : 0 ≤ m.size.y) :
    ∃ m', addConst l v m = (.ok (), m') ∧
      (∀ i, i.In m.size → m'.at l i = .ok v) ∧
      (∀ l', l' ≠ l → m'.get l' = m.get l') ∧
      m'.layers = (if m.exists l then m.layers else m.layers ++ [l]) ∧
      SameGeometry m m' ∧ SameMeta m m' := by
  obtain ⟨m', h1, h2, h3⟩ := C02_add_is_keyed_update m l (Mat.const m.size.x.toNat m.size.y.toNat v)
    (by simpa using hx) (by simpa using hy)
  refine ⟨m', h1, ?_, h3⟩
  intro i hi
  obtain ⟨i1, i2, i3, i4⟩ := hi
  have hd : m'.data l = some (Mat.const m.size.x.toNat m.size.y.toNat v) := by
    unfold CostMap.get at h2
    split at h2
    · cases h2; assumption
    · cases h2
  rw [at_eq hd, Mat.get?_const, if_pos (by omega)]; rfl

example : ∃ m', add "c" (Mat.ofFn 5 4 fun i _ => UInt8.ofNat i.toNat) Demo.base = (.ok (), m') ∧
    m'.layers = ["a", "b", "c"] := by
  obtain ⟨m', h, -, -, hl, -⟩ := C02_add_is_keyed_update Demo.base "c"
    (Mat.ofFn 5 4 fun i _ => UInt8.ofNat i.toNat) (by decide +kernel) (by decide +kernel)
  exact ⟨m', h, hl.trans (by decide +kernel)⟩
example : add "c" Mat.empty Demo.base = (.assertFail, Demo.base) :=
  C02_add_rejects_wrong_size _ _ _ (by decide +kernel)

/-! ## C03 erase -/

/-- C03. `erase(l)` of a coherent map (see C01: every map built from distinct names is). -/
theorem C03_erase_removes_one_layer {m : CostMap K} (hm : m.Coherent) (l : String) :
    ∃ m', erase l m = (.ok (m.exists l), m') ∧
      m'.exists l = false ∧ l ∉ m'.layers ∧
      (∀ l', l' ≠ l → m'.get l' = m.get l' ∧ (l' ∈ m'.layers ↔ l' ∈ m.layers)) ∧
      m'.layers = m.layers.filter (fun l' => l' ≠ l) ∧
      (m.basicLayers.Nodup → m.exists l = true →
        m'.basicLayers = m.basicLayers.filter (fun l' => l' ≠ l)) ∧
      (m.exists l = false → m' = m) ∧
      SameGeometry m m' ∧ m'.frameId = m.frameId ∧ m'.timestamp = m.timestamp := by
  by_cases he : m.exists l = true
  · have hl : l ∈ m.layers := (hm.mem_iff l).mpr he
    have hn : (m.data l).isNone = false := by
      have : (m.data l).isSome = true := he
      simp [Option.isSome_iff_ne_none] at *; exact this
    have hfil : eraseFirst l m.layers = m.layers.filter (fun l' => l' ≠ l) := by
      rw [eraseFirst_eq, hm.nodup.erase_eq_filter]
      congr 1; ext x; by_cases h : x = l <;> simp [h]
    obtain ⟨b, hb, hbe⟩ : ∃ b, (m.basicLayers.Nodup → b = m.basicLayers.filter (fun l' => l' ≠ l)) ∧
        erase l m = (.ok true, { m with data := fun l' => if l' = l then none else m.data l',
                                        layers := eraseFirst l m.layers, basicLayers := b }) := by
      by_cases hb : l ∈ m.basicLayers
      · refine ⟨eraseFirst l m.basicLayers, ?_, ?_⟩
        · intro nd
          rw [eraseFirst_eq, nd.erase_eq_filter]
          congr 1; ext x; by_cases h : x = l <;> simp [h]
        · simp [erase, hn, hl, hb]
      · refine ⟨m.basicLayers, ?_, ?_⟩
        · intro _
          rw [List.filter_eq_self.mpr]
          intro a ha
          simp only [ne_eq, decide_not, Bool.not_eq_true', decide_eq_false_iff_not]
          rintro rfl; exact hb ha
        · simp [erase, hn, hl, hb]
    rw [he]
    refine ⟨_, hbe, ?_, ?_, ?_, hfil, fun nd _ => hb nd, fun h => by simp at h,
      ⟨rfl, rfl, rfl, rfl, rfl⟩, rfl, rfl⟩
    · simp [CostMap.exists]
    · simp only [hfil]; simp
    · intro l' h
      refine ⟨by simp [CostMap.get, h], ?_⟩
      simp only [hfil]; simp [h]
  · have he' : m.exists l = false := by simpa using he
    have hd : m.data l = none := exists_false_iff.mp he'
    have hl : l ∉ m.layers := by rw [hm.mem_iff, hd]; simp
    refine ⟨m, by simp [erase, hd, he'], he', hl, fun _ _ => ⟨rfl, Iff.rfl⟩, ?_, ?_, fun _ => rfl,
      ⟨rfl, rfl, rfl, rfl, rfl⟩, rfl, rfl⟩
    · rw [List.filter_eq_self.mpr]
      intro a ha
      simp only [ne_eq, decide_not, Bool.not_eq_true', decide_eq_false_iff_not]
      rintro rfl; exact hl ha
    · intro _ h; simp [he'] at h

example : ∃ m', erase "a" Demo.base = (.ok true, m') ∧ m'.layers = ["b"] ∧ m'.basicLayers = [] := by
  obtain ⟨m', h, -, -, -, hl, hb, -⟩ := C03_erase_removes_one_layer Demo.base_coherent "a"
  rw [show Demo.base.exists "a" = true by decide +kernel] at h
  exact ⟨m', h, hl.trans (by decide +kernel), (hb (by decide +kernel) (by decide +kernel)).trans (by decide +kernel)⟩

/-- C03, what is false: erasing drops only the first copy of a name from the basic layers, so with a
basic layer listed twice the erased layer is still a basic layer. -/
theorem C03_erase_keeps_second_basic_copy :
    ∃ m : CostMap ℚ, m.Coherent ∧ m.exists "a" = true ∧ "a" ∈ (erase "a" m).2.basicLayers :=
  ⟨Demo.base.setBasicLayers ["a", "a"],
    ⟨Demo.base_coherent.nodup, Demo.base_coherent.mem_iff, Demo.base_coherent.dims⟩,
    by decide +kernel, by decide +kernel⟩

/-- D16. Duplicate names given to the constructor survive `erase`: the name is still listed although
the layer is gone. -/
theorem D16_duplicate_constructor_names :
    ∃ m : CostMap ℚ, m = new ["a", "a"] ∧ (erase "a" m).1 = .ok true ∧
      (erase "a" m).2.exists "a" = false ∧ "a" ∈ (erase "a" m).2.layers :=
  ⟨_, rfl, by decide +kernel, by decide +kernel, by decide +kernel⟩

/-! ## C04 missing layers -/

/-- C04. On a layer that does not exist reads, writes and clears throw `std::out_of_range` and leave the
map as it was. (Inflation and deflation: `C04_inflate_missing_layer`, `C04_deflate_missing_layer`.) -/
theorem C04_missing_layer_throws (m : CostMap K) (l : String) (h : m.exists l = false) (i : Idx) (v : Cost) :
    m.get l = .thrown .outOfRange ∧ m.at l i = .thrown .outOfRange ∧
    setAt l i v m = (.thrown .outOfRange, m) ∧ clear l m = (.thrown .outOfRange, m) ∧
    m.isValidLayer i l = .thrown .outOfRange ∧ m.getPosition3 l i = .thrown .outOfRange := by
  have hd := exists_false_iff.mp h
  have ha := at_none hd i
  exact ⟨by simp [CostMap.get, hd], ha, by simp [setAt, hd], by simp [clear, hd],
    by simp [isValidLayer, Res.map, ha], by simp [getPosition3, isValidLayer, Res.map, ha]⟩

/-- C04. On a layer that exists `get` and `clear` never throw. -/
theorem C04_existing_layer_never_throws (m : CostMap K) (l : String) (h : m.exists l = true) :
    (∃ a, m.get l = .ok a) ∧ ∃ m', clear l m = (.ok (), m') := by
  obtain ⟨a, ha⟩ := exists_iff.mp h
  exact ⟨⟨a, by simp [CostMap.get, ha]⟩, _, by simp only [clear, ha]; rfl⟩

example : clear "z" Demo.base = (.thrown .outOfRange, Demo.base) :=
  (C04_missing_layer_throws Demo.base "z" (by decide +kernel) 0 0).2.2.2.1
example : ∃ a, Demo.base.get "b" = .ok a :=
  (C04_existing_layer_never_throws Demo.base "b" (by decide +kernel)).1

/-! ## C05 cell writes -/

/-- C05. A write through `at` is read back there and changes nothing else. -/
theorem C05_write_frame {m : CostMap K} (hm : m.Coherent) {l : String} (hl : m.exists l = true) {i : Idx}
    (hi : i.In m.size) (v : Cost) :
    ∃ m', setAt l i v m = (.ok (), m') ∧ m'.at l i = .ok v ∧
      (∀ l' j, ¬ (l' = l ∧ j = i) → m'.at l' j = m.at l' j) ∧
      m'.layers = m.layers ∧ (∀ l', m'.exists l' = m.exists l') ∧
      SameGeometry m m' ∧ SameMeta m m' := by
  obtain ⟨m', h, hs, hat, -⟩ := setAt_spec hm hl hi v
  refine ⟨m', h, by rw [hat]; simp, fun l' j hn => by rw [hat, if_neg hn], hs.layers, hs.isSome,
    hs.geo, hs.info⟩

/-- C05. An index out of range is undefined behaviour for reads and writes alike, never an exception. -/
theorem C05_out_of_range_is_ub {m : CostMap K} (hm : m.Coherent) {l : String} (hl : m.exists l = true)
    {i : Idx} (hi : ¬ i.In m.size) (v : Cost) :
    m.at l i = .ub ∧ (setAt l i v m).1 = .ub := by
  refine ⟨hm.at_ub hl hi, ?_⟩
  obtain ⟨a, ha⟩ := exists_iff.mp hl
  have : ¬ a.InRange i.x i.y := fun h => hi ((hm.inRange ha i).mp h)
  simp [setAt, ha, this]

example : ∃ m', setAt "b" ⟨4, 3⟩ 9 Demo.base = (.ok (), m') ∧ m'.at "b" ⟨4, 3⟩ = .ok 9 := by
  obtain ⟨m', h, h', -⟩ := C05_write_frame Demo.base_coherent (l := "b") (by decide +kernel)
    (i := ⟨4, 3⟩) (by decide +kernel) 9
  exact ⟨m', h, h'⟩
example : Demo.base.at "b" ⟨5, 0⟩ = .ub :=
  (C05_out_of_range_is_ub Demo.base_coherent (l := "b") (by decide +kernel) (by decide +kernel) 0).1

/-! ## C06 clearing -/

/-- Every cell of layer `l` reads `NO_INFORMATION`. -/
def AllUnknown (m : CostMap K) (l : String) : Prop := ∀ i, i.In m.size → m.at l i = .ok NO_INFORMATION

theorem clear_eq {m : CostMap K} {l : String} {a : Mat Cost} (ha : m.data l = some a) :
    clear l m = (.ok (), m.setData l (a.setConstant NO_INFORMATION)) := by
  unfold clear; rw [ha]

/-- C06. `clear(l)`. -/
theorem C06_clear {m : CostMap K} (hm : m.Coherent) {l : String} (hl : m.exists l = true) :
    ∃ m', clear l m = (.ok (), m') ∧ AllUnknown m' l ∧
      (∀ l', l' ≠ l → m'.get l' = m.get l') ∧ m'.exists l = true ∧ m'.layers = m.layers ∧
      SameGeometry m m' ∧ SameMeta m m' := by
  obtain ⟨a, ha⟩ := exists_iff.mp hl
  refine ⟨_, clear_eq ha, ?_, ?_, ?_, rfl,
    ⟨rfl, rfl, rfl, rfl, rfl⟩, ⟨rfl, rfl, rfl⟩⟩
  · intro i hi
    rw [at_setData]
    obtain ⟨c, hc⟩ := a.exists_get? ((hm.inRange ha i).mpr hi)
    simp [Mat.get?_setConstant, hc]
  · intro l' h; simp [get_setData, h]
  · simp [CostMap.exists, setData]

/-- C06. `clearAll()`. -/
theorem C06_clearAll {m : CostMap K} (hm : m.Coherent) :
    (∀ l, m.exists l = true → AllUnknown m.clearAll l) ∧
      (∀ l, m.clearAll.exists l = m.exists l) ∧ m.clearAll.layers = m.layers ∧
      SameGeometry m m.clearAll ∧ SameMeta m m.clearAll := by
  refine ⟨?_, (SameShape.clearAll m).isSome, rfl, ⟨rfl, rfl, rfl, rfl, rfl⟩, ⟨rfl, rfl, rfl⟩⟩
  intro l hl i hi
  obtain ⟨a, ha⟩ := exists_iff.mp hl
  obtain ⟨c, hc⟩ := a.exists_get? ((hm.inRange ha i).mpr hi)
  simp [CostMap.at, clearAll, ha, Mat.get?_setConstant, hc]

/-- Clearing a list of layers: the ones up to the first missing name are cleared, nothing else. -/
theorem clearList_spec (ls : List String) : ∀ {m : CostMap K}, m.Coherent →
    ∃ m', (Act.forEach clear ls m).2 = m' ∧
      (Act.forEach clear ls m).1 = (if ls.all m.exists then .ok () else .thrown .outOfRange) ∧
      SameShape m m' ∧
      (∀ l ∈ ls.takeWhile m.exists, AllUnknown m' l) ∧
      (∀ l, l ∉ ls.takeWhile m.exists → m'.data l = m.data l) := by
  induction ls with
  | nil => intro m _; exact ⟨m, rfl, rfl, SameShape.refl m, by simp, fun _ _ => rfl⟩
  | cons l ls ih =>
    intro m hm
    by_cases hl : m.exists l = true
    · obtain ⟨a, ha⟩ := exists_iff.mp hl
      have hc := clear_eq ha
      have hs : SameShape m (m.setData l (a.setConstant NO_INFORMATION)) := SameShape.setData ha rfl rfl
      have hex : CostMap.exists (m.setData l (a.setConstant NO_INFORMATION)) = m.exists :=
        funext hs.isSome
      obtain ⟨m', h1, h2, h3, h4, h5⟩ := ih (hs.coherent hm)
      rw [hex] at h2 h4 h5
      refine ⟨m', ?_, ?_, hs.trans h3, ?_, ?_⟩
      · simp [Act.forEach, Act.bind, hc, h1]
      · simp [Act.forEach, Act.bind, hc, h2, hl]
      · intro l' hl'
        rw [List.takeWhile_cons_of_pos hl] at hl'
        by_cases hm' : l' ∈ ls.takeWhile m.exists
        · exact h4 l' hm'
        · have : l' = l := by simpa [hm'] using hl'
          subst this
          intro i hi
          rw [at_congr (h5 _ hm'), at_setData]
          rw [h3.geo.size] at hi
          obtain ⟨c, hc⟩ := a.exists_get? ((hm.inRange ha i).mpr hi)
          simp [Mat.get?_setConstant, hc]
      · intro l' hl'
        rw [List.takeWhile_cons_of_pos hl, List.mem_cons, not_or] at hl'
        rw [h5 l' hl'.2]
        simp [setData, hl'.1]
    · have hl' : m.exists l = false := by simpa using hl
      have hd := exists_false_iff.mp hl'
      have hc : clear l m = (.thrown .outOfRange, m) := by simp [clear, hd]
      refine ⟨m, ?_, ?_, SameShape.refl m, ?_, fun _ _ => rfl⟩
      · simp [Act.forEach, Act.bind, hc]
      · simp [Act.forEach, Act.bind, hc, hl']
      · simp [hl']

/-- C06. `clearBasic()`: when all basic layers exist, exactly they are cleared. -/
theorem C06_clearBasic {m : CostMap K} (hm : m.Coherent) (hb : ∀ l ∈ m.basicLayers, m.exists l = true) :
    ∃ m', clearBasic m = (.ok (), m') ∧ (∀ l ∈ m.basicLayers, AllUnknown m' l) ∧
      (∀ l, l ∉ m.basicLayers → m'.get l = m.get l) ∧ (∀ l, m'.exists l = m.exists l) ∧
      m'.layers = m.layers ∧ SameGeometry m m' ∧ SameMeta m m' := by
  obtain ⟨m', h1, h2, h3, h4, h5⟩ := clearList_spec m.basicLayers hm
  have hall : m.basicLayers.all m.exists = true := List.all_eq_true.mpr hb
  have htw : m.basicLayers.takeWhile m.exists = m.basicLayers := by
    rw [← List.append_nil m.basicLayers, List.takeWhile_append_of_pos hb]; simp
  rw [htw] at h4 h5
  refine ⟨m', ?_, h4, fun l hl => get_congr (h5 l hl), h3.isSome, h3.layers, h3.geo, h3.info⟩
  rw [hall, if_pos rfl] at h2
  exact Prod.ext h2 h1

/-- C06. `clearBasic()` with a basic layer that does not exist: it throws, the basic layers listed before
the first missing one are cleared and every other layer is untouched. -/
theorem C06_clearBasic_missing {m : CostMap K} (hm : m.Coherent)
    (before after : List String) (l : String) (hb : m.basicLayers = before ++ l :: after)
    (hbefore : ∀ l' ∈ before, m.exists l' = true) (hl : m.exists l = false) :
    ∃ m', clearBasic m = (.thrown .outOfRange, m') ∧ (∀ l' ∈ before, AllUnknown m' l') ∧
      (∀ l', l' ∉ before → m'.get l' = m.get l') ∧ m'.layers = m.layers ∧
      SameGeometry m m' ∧ SameMeta m m' := by
  obtain ⟨m', h1, h2, h3, h4, h5⟩ := clearList_spec m.basicLayers hm
  have hall : m.basicLayers.all m.exists = false := by
    rw [hb, List.all_append, List.all_cons, hl]; simp
  have htw : m.basicLayers.takeWhile m.exists = before := by
    rw [hb, List.takeWhile_append_of_pos hbefore, List.takeWhile_cons, hl]; simp
  rw [htw] at h4 h5
  refine ⟨m', ?_, h4, fun l hl => get_congr (h5 l hl), h3.layers, h3.geo, h3.info⟩
  rw [hall] at h2
  exact Prod.ext h2 h1

example : ∃ m', clearBasic Demo.base = (.ok (), m') ∧ AllUnknown m' "a" ∧ m'.get "b" = Demo.base.get "b" := by
  obtain ⟨m', h, h1, h2, -⟩ := C06_clearBasic Demo.base_coherent (by decide +kernel)
  exact ⟨m', h, h1 "a" (by decide +kernel), h2 "b" (by decide +kernel)⟩
example : ∃ m', clearBasic (Demo.base.setBasicLayers ["b", "z", "a"]) = (.thrown .outOfRange, m') ∧
    AllUnknown m' "b" ∧ m'.get "a" = Demo.base.get "a" := by
  obtain ⟨m', h, h1, h2, -⟩ := C06_clearBasic_missing (m := Demo.base.setBasicLayers ["b", "z", "a"])
    ⟨Demo.base_coherent.nodup, Demo.base_coherent.mem_iff, Demo.base_coherent.dims⟩
    ["b"] ["a"] "z" rfl (by decide +kernel) (by decide +kernel)
  exact ⟨m', h, h1 "b" (by simp), h2 "a" (by decide +kernel)⟩

/-! ## C07 validity -/

/-- C07. One layer: valid exactly when the cell is known. -/
theorem C07_valid_layer {m : CostMap K} {i : Idx} {l : String} {c : Cost} (h : m.at l i = .ok c) :
    m.isValidLayer i l = .ok (decide (c ≠ NO_INFORMATION)) := by
  simp [isValidLayer, Res.map, h]

/-- C07. Several layers that all exist: valid exactly when there is at least one and all are valid. -/
theorem C07_valid_layers {m : CostMap K} (hm : m.Coherent) {i : Idx} (hi : i.In m.size) (ls : List String)
    (hls : ∀ l ∈ ls, m.exists l = true) :
    ∃ b, m.isValidLayers i ls = .ok b ∧
      (b = true ↔ ls ≠ [] ∧ ∀ l ∈ ls, ∃ c, m.at l i = .ok c ∧ c ≠ NO_INFORMATION) := by
  have key : ∀ ls : List String, (∀ l ∈ ls, m.exists l = true) →
      ∃ b, m.allValid i ls = .ok b ∧
        (b = true ↔ ∀ l ∈ ls, ∃ c, m.at l i = .ok c ∧ c ≠ NO_INFORMATION) := by
    intro ls
    induction ls with
    | nil => intro _; exact ⟨true, rfl, by simp⟩
    | cons l ls ih =>
      intro h
      obtain ⟨c, hc⟩ := hm.at_ok (h l (by simp)) hi
      by_cases hn : c = NO_INFORMATION
      · refine ⟨false, by simp [allValid, hc, hn], ?_⟩
        simp [hc, hn]
      · obtain ⟨b, hb, hb'⟩ := ih fun l' hl' => h l' (by simp [hl'])
        refine ⟨b, by simp [allValid, hc, hn, hb], ?_⟩
        simp [hc, hn, hb']
  cases ls with
  | nil => exact ⟨false, rfl, by simp⟩
  | cons l ls =>
    obtain ⟨b, hb, hb'⟩ := key (l :: ls) hls
    exact ⟨b, by simpa [isValidLayers] using hb, by simpa using hb'⟩

/-- C07. `isValid(i)` is validity in the basic layers; without basic layers every cell is invalid. -/
theorem C07_valid_basic (m : CostMap K) (i : Idx) :
    m.isValid i = m.isValidLayers i m.basicLayers ∧ (m.basicLayers = [] → m.isValid i = .ok false) := by
  refine ⟨rfl, fun h => by simp [isValid, isValidLayers, h]⟩

/-- C07. An unknown cell in an earlier layer hides a missing later one; a missing layer after valid ones
throws. -/
theorem C07_missing_layer_order {m : CostMap K} (hm : m.Coherent) {i : Idx} (hi : i.In m.size)
    (before after : List String) (l : String) (hb : ∀ l' ∈ before, m.exists l' = true)
    (hl : m.exists l = false) :
    m.isValidLayers i (before ++ l :: after) =
      (if ∀ l' ∈ before, m.at l' i ≠ .ok NO_INFORMATION then .thrown .outOfRange else .ok false) := by
  have key : ∀ before : List String, (∀ l' ∈ before, m.exists l' = true) →
      m.allValid i (before ++ l :: after) =
      (if ∀ l' ∈ before, m.at l' i ≠ .ok NO_INFORMATION then .thrown .outOfRange else .ok false) := by
    intro before
    induction before with
    | nil => intro _; simp [allValid, at_none (exists_false_iff.mp hl)]
    | cons l0 ls ih =>
      intro h
      obtain ⟨c, hc⟩ := hm.at_ok (h l0 (by simp)) hi
      have := ih fun l' hl' => h l' (by simp [hl'])
      by_cases hn : c = NO_INFORMATION
      · simp [allValid, hc, hn]
      · simp [allValid, hc, hn, this]
  have hne : (before ++ l :: after).isEmpty = false := by cases before <;> rfl
  simp only [isValidLayers, hne]
  exact key before hb

example : ∃ b, Demo.base.isValidLayers ⟨2, 1⟩ ["a", "b"] = .ok b ∧ b = true := by
  obtain ⟨b, h, h'⟩ := C07_valid_layers Demo.base_coherent (i := ⟨2, 1⟩) (by decide +kernel) ["a", "b"]
    (by decide +kernel)
  refine ⟨b, h, h'.mpr ⟨by simp, ?_⟩⟩
  intro l hl
  simp only [List.mem_cons, List.not_mem_nil, or_false] at hl
  rcases hl with rfl | rfl
  · exact ⟨21, by decide +kernel, by decide⟩
  · exact ⟨7, by decide +kernel, by decide⟩
example : Demo.base.isValidLayers ⟨0, 0⟩ ["b", "z"] = .ok false := by
  have := C07_missing_layer_order Demo.base_coherent (i := ⟨0, 0⟩) (by decide +kernel) ["b"] [] "z"
    (by decide +kernel) (by decide +kernel)
  rwa [if_neg (by decide +kernel)] at this
example : Demo.base.isValidLayers ⟨0, 0⟩ ["a", "z"] = .thrown .outOfRange := by
  have := C07_missing_layer_order Demo.base_coherent (i := ⟨0, 0⟩) (by decide +kernel) ["a"] [] "z"
    (by decide +kernel) (by decide +kernel)
  rwa [if_pos (by decide +kernel)] at this

/-! ## C08 getPosition3, getVector -/

/-- C08. `getPosition3` succeeds exactly for valid cells, with the cell's centre and cost. -/
theorem C08_getPosition3 {m : CostMap K} (hm : m.Coherent) {l : String} (hl : m.exists l = true) {i : Idx}
    (hi : i.In m.size) :
    ∃ c p, m.at l i = .ok c ∧ m.getPosition i = some p ∧
      m.getPosition3 l i = .ok (if c = NO_INFORMATION then none else some (p, c)) := by
  obtain ⟨c, hc⟩ := hm.at_ok hl hi
  refine ⟨c, _, hc, getPosition_eq hi, ?_⟩
  by_cases hn : c = NO_INFORMATION
  · simp [getPosition3, isValidLayer, Res.map, hc, hn]
  · simp [getPosition3, isValidLayer, Res.map, hc, hn, getPosition_eq hi]

/-- C08. `getVector` succeeds exactly when the three component layers are valid, with their costs in order. -/
theorem C08_getVector {m : CostMap K} {pre : String} {i : Idx} {cx cy cz : Cost}
    (hx : m.at (pre ++ "x") i = .ok cx) (hy : m.at (pre ++ "y") i = .ok cy)
    (hz : m.at (pre ++ "z") i = .ok cz) :
    m.getVector pre i = .ok (if cx ≠ NO_INFORMATION ∧ cy ≠ NO_INFORMATION ∧ cz ≠ NO_INFORMATION
      then some (cx, cy, cz) else none) := by
  unfold getVector isValidLayers
  by_cases h1 : cx = NO_INFORMATION
  · simp [allValid, hx, h1]
  · by_cases h2 : cy = NO_INFORMATION
    · simp [allValid, hx, hy, h1, h2]
    · by_cases h3 : cz = NO_INFORMATION
      · simp [allValid, hx, hy, hz, h1, h2, h3]
      · simp [allValid, hx, hy, hz, h1, h2, h3]

example : ∃ c p, Demo.rotated.at "b" ⟨2, 1⟩ = .ok c ∧ Demo.rotated.getPosition ⟨2, 1⟩ = some p ∧
    Demo.rotated.getPosition3 "b" ⟨2, 1⟩ = .ok (some (p, c)) := by
  obtain ⟨c, p, h1, h2, h3⟩ := C08_getPosition3 Demo.rotated_coherent (l := "b") (by decide +kernel)
    (i := ⟨2, 1⟩) (by decide +kernel)
  have : c = 7 := by
    have : Demo.rotated.at "b" ⟨2, 1⟩ = .ok 7 := by decide +kernel
    rw [this] at h1; cases h1; rfl
  refine ⟨c, p, h1, h2, ?_⟩
  rw [h3, if_neg (by rw [this]; decide)]

/-- A map with the three component layers of a vector layer `n_`. -/
def Demo.vec : CostMap ℚ :=
  (addConst "n_z" 3 (addConst "n_y" 2 (addConst "n_x" 1 Demo.base).2).2).2
example : Demo.vec.getVector "n_" ⟨1, 1⟩ = .ok (some (1, 2, 3)) := by
  rw [C08_getVector (cx := 1) (cy := 2) (cz := 3) (by decide +kernel) (by decide +kernel) (by decide +kernel)]
  decide

/-! ## C09 setGeometry -/

theorem roundHalfAway_spec {x : K} (hx : 0 ≤ x) :
    (roundHalfAway x : K) - 1 / 2 ≤ x ∧ x < (roundHalfAway x : K) + 1 / 2 := by
  simp only [roundHalfAway, hx, if_true]
  constructor
  · linarith [Int.floor_le (x + 1 / 2)]
  · linarith [Int.lt_floor_add_one (x + 1 / 2)]

/-- C09. `setGeometry` with positive arguments. The size on an axis is the integer `n` with
`n - 1/2 ≤ length / resolution < n + 1/2`, i.e. the quotient rounded half away from zero. -/
theorem C09_setGeometry (m : CostMap K) (len : Vec K) (r : K) (p : Vec K)
    (hx : 0 < len.x) (hy : 0 < len.y) (hr : 0 < r) :
    ∃ m', setGeometry len r p m = (.ok (), m') ∧
      ((m'.size.x : K) - 1 / 2 ≤ len.x / r ∧ len.x / r < m'.size.x + 1 / 2) ∧
      ((m'.size.y : K) - 1 / 2 ≤ len.y / r ∧ len.y / r < m'.size.y + 1 / 2) ∧
      m'.length = ⟨m'.size.x * r, m'.size.y * r⟩ ∧
      |m'.length.x - len.x| ≤ r / 2 ∧ |m'.length.y - len.y| ≤ r / 2 ∧
      m'.resolution = r ∧ m'.position = p ∧ m'.startIndex = 0 ∧
      (∀ l, m'.exists l = m.exists l) ∧ m'.layers = m.layers ∧ SameMeta m m' ∧
      (∀ l a, m'.get l = .ok a → (a.rows : Int) = m'.size.x ∧ (a.cols : Int) = m'.size.y) ∧
      ∀ l, m.exists l = true → AllUnknown m' l := by
  have hsx := roundHalfAway_spec (div_nonneg hx.le hr.le)
  have hsy := roundHalfAway_spec (div_nonneg hy.le hr.le)
  have hnx := size_nonneg_of_round (div_nonneg hx.le hr.le)
  have hny := size_nonneg_of_round (div_nonneg hy.le hr.le)
  have hlen : ∀ (n : Int) (t : K), (n : K) - 1 / 2 ≤ t / r → t / r < n + 1 / 2 → |(n : K) * r - t| ≤ r / 2 := by
    intro n t h1 h2
    rw [le_div_iff₀ hr] at h1
    rw [div_lt_iff₀ hr] at h2
    rw [abs_le]; constructor <;> linarith
  have heq : setGeometry len r p m = (.ok (),
      { (m.resize ⟨roundHalfAway (len.x / r), roundHalfAway (len.y / r)⟩).clearAll with
        resolution := r
        length := ⟨(roundHalfAway (len.x / r) : K) * r, (roundHalfAway (len.y / r) : K) * r⟩
        position := p
        startIndex := 0 }) := by
    simp only [setGeometry, hx, hy, hr, not_true, if_false]
  refine ⟨_, heq, hsx, hsy, rfl,
    hlen _ _ hsx.1 hsx.2, hlen _ _ hsy.1 hsy.2, rfl, rfl, rfl, ?_, rfl, ⟨rfl, rfl, rfl⟩, ?_, ?_⟩
  · intro l
    simp only [CostMap.exists, clearAll, resize, Option.map_map]
    rw [Option.isSome_map]
  · intro l a ha
    simp only [CostMap.get, clearAll, resize, Option.map_map] at ha ⊢
    split at ha
    · rename_i b hb
      cases ha
      obtain ⟨b, -, rfl⟩ := Option.map_eq_some_iff.mp hb
      simp [hnx, hny]
    · cases ha
  · intro l hl i hi
    obtain ⟨a, ha⟩ := exists_iff.mp hl
    obtain ⟨i1, i2, i3, i4⟩ := hi
    simp only [clearAll, resize] at i1 i2 i3 i4
    simp only [CostMap.at, clearAll, resize, ha, Option.map_some]
    rw [Mat.get?_setConstant, Mat.get?_const, if_pos (by omega)]
    rfl

/-- C09. Non-positive arguments fail an assertion before anything changes. -/
theorem C09_setGeometry_rejects (m : CostMap K) (len : Vec K) (r : K) (p : Vec K)
    (h : ¬ (0 < len.x ∧ 0 < len.y ∧ 0 < r)) : setGeometry len r p m = (.assertFail, m) := by
  unfold setGeometry
  by_cases h1 : 0 < len.x
  · by_cases h2 : 0 < len.y
    · by_cases h3 : 0 < r
      · exact absurd ⟨h1, h2, h3⟩ h
      · simp [h1, h2, h3]
    · simp [h1, h2]
  · simp [h1]

/-- C09. A length of at least half a cell gives a usable map, whatever the map was before. -/
theorem C09_setGeometry_geo (m : CostMap K) (len : Vec K) (r : K) (p : Vec K)
    (hx : r / 2 ≤ len.x) (hy : r / 2 ≤ len.y) (hr : 0 < r) :
    (setGeometry len r p m).1 = .ok () ∧ (setGeometry len r p m).2.Geo := by
  have hx0 : 0 < len.x := by linarith
  have hy0 : 0 < len.y := by linarith
  obtain ⟨m', h, hsx, hsy, hl, -, -, hres, -, hst, -⟩ := C09_setGeometry m len r p hx0 hy0 hr
  rw [h]
  have pos : ∀ (n : Int) (t : K), r / 2 ≤ t → t / r < n + 1 / 2 → 0 < n := by
    intro n t h1 h2
    have h3 : 1 / 2 ≤ t / r := by rw [le_div_iff₀ hr]; linarith
    have : (0 : K) < n := by linarith
    exact_mod_cast this
  have px := pos _ _ hx hsx.2
  have py := pos _ _ hy hsy.2
  refine ⟨rfl, by rw [hres]; exact hr, px, py, by rw [hl, hres], by rw [hl, hres], ?_⟩
  rw [hst]; exact ⟨le_refl _, px, le_refl _, py⟩

/-- C09. A positive length under half a cell gives a map without cells. -/
theorem C09_setGeometry_empty (m : CostMap K) (len : Vec K) (r : K) (p : Vec K)
    (hx : 0 < len.x) (hx' : len.x < r / 2) (hy : 0 < len.y) :
    (setGeometry len r p m).1 = .ok () ∧ (setGeometry len r p m).2.size.x = 0 := by
  have hr : 0 < r := by linarith
  obtain ⟨m', h, hsx, -⟩ := C09_setGeometry m len r p hx hy hr
  rw [h]
  refine ⟨rfl, ?_⟩
  have h1 : len.x / r < 1 / 2 := by rw [div_lt_iff₀ hr]; linarith
  have h2 : 0 < len.x / r := div_pos hx hr
  have h3 : (m'.size.x : K) < 1 := by linarith [hsx.1]
  have h4 : (-1 : K) < m'.size.x := by linarith [hsx.2]
  have h3' : m'.size.x < 1 := by exact_mod_cast h3
  have h4' : -1 < m'.size.x := by exact_mod_cast h4
  show m'.size.x = 0
  omega

example : (setGeometry (K := ℚ) ⟨26 / 10, 1⟩ (1 / 2) ⟨0, 0⟩ Demo.base).2.Geo :=
  (C09_setGeometry_geo _ _ _ _ (by norm_num) (by norm_num) (by norm_num)).2
example : (setGeometry (K := ℚ) ⟨1 / 10, 1⟩ (1 / 2) ⟨0, 0⟩ Demo.base).2.size.x = 0 :=
  (C09_setGeometry_empty _ _ _ _ (by norm_num) (by norm_num) (by norm_num)).2
example : setGeometry (K := ℚ) ⟨1, 0⟩ (1 / 2) ⟨0, 0⟩ Demo.base = (.assertFail, Demo.base) :=
  C09_setGeometry_rejects _ _ _ _ (by norm_num)

end CostMapModel

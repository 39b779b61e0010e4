import Verif.Lemmas.Merge
import Verif.Model.Aliasing
import Verif.Props.Demo
import Verif.Props.Geometry

/-!
# C105: arguments that are part of the map

A call gives the same whether its arguments are copies of what the map's getters return, or are what they return: references to
parts of the map, read anew at each use. It is so for all functions but `erase`.
-/

namespace CostMapModel
open CostMap

section
variable {K : Type} [Field K] [LinearOrder K] [IsStrictOrderedRing K] [FloorRing K]

theorem use_some {α : Type} {f : CostMap K → Option α} {m : CostMap K} {a : α} (h : f m = some a) : use f m = (.ok a, m) := by
  unfold use; rw [h]; rfl

/-- C105. Geometry, positions and indices. -/
theorem C105_geometry (m : CostMap K) (len : LengthRef K) (r : K) (p : PositionRef K) (i : IdxRef) :
    setGeometryRef len r p m = setGeometry (len.read m) r (p.read m) m ∧
    setPositionRef p m = (.ok (), m.setPosition (p.read m)) ∧
    setStartIndexRef i m = (.ok (), m.setStartIndex (i.read m)) ∧
    moveRef p m = move (p.read m) m := by
  refine ⟨?_, rfl, rfl, rfl⟩
  unfold setGeometryRef setGeometry
  simp only [Act.bind, CostMap.assert, decide_eq_true_eq]
  by_cases h1 : 0 < (len.read m).x
  · by_cases h2 : 0 < (len.read m).y
    · by_cases h3 : 0 < r
      · simp only [h1, h2, h3, if_true, not_true, if_false, Act.modify]
        cases p <;> rfl
      · simp [h1, h2, h3]
    · simp [h1, h2]
  · simp [h1]

/-- C105. Names and lists of names. -/
theorem C105_names (m : CostMap K) (ls : NamesRef) (l : NameRef) {s : String} (hl : l.read m = some s) :
    setBasicLayersRef ls m = (.ok (), m.setBasicLayers (ls.read m)) ∧ setFrameIdRef l m = (.ok (), m.setFrameId s) ∧
    clearRef l m = clear s m := by
  refine ⟨rfl, ?_, ?_⟩
  · unfold setFrameIdRef
    rw [Act.bind_ok (use_some (f := fun m => l.read m) hl)]; rfl
  · unfold clearRef
    rw [Act.bind_ok (use_some (f := fun m => l.read m) hl)]

/-- C105. Writing to a cell. -/
theorem C105_write (m : CostMap K) (l : NameRef) {s : String} (hl : l.read m = some s) (i : IdxRef) (p : PositionRef K) (v : Cost) :
    setAtRef l i v m = setAt s (i.read m) v m ∧ setAtPositionRef l p v m = setAtPosition s (p.read m) v m := by
  have h : ∀ i : IdxRef, setAtRef l i v m = setAt s (i.read m) v m := fun i => by
    unfold setAtRef
    rw [Act.bind_ok (use_some (f := fun m => l.read m) hl)]
  refine ⟨h i, ?_⟩
  unfold setAtPositionRef setAtPosition
  simp only [h, IdxRef.read]

/-- C105. Adding a layer under a name of the map's, with a layer of its own as data: a layer is copied, or assigned to itself. -/
theorem C105_add (m : CostMap K) (l : NameRef) {s : String} (hl : l.read m = some s) (a : MatRef) {d : Mat Cost}
    (ha : a.read m = some d) (v : Cost) :
    addRef l a m = add s d m ∧ addConstRef l v m = addConst s v m := by
  have h : ∀ (a : MatRef) (d : Mat Cost), a.read m = some d → addRef l a m = add s d m := by
    intro a d ha
    have ul := use_some (f := fun m => l.read m) hl
    have ua := use_some (f := fun m => a.read m) ha
    unfold addRef add
    by_cases h1 : m.size.x = d.rows
    · by_cases h2 : m.size.y = d.cols
      · have e1 : CostMap.assert (fun m => decide (m.size.x = d.rows)) m = (.ok (), m) := by simp [CostMap.assert, h1]
        have e2 : CostMap.assert (fun m => decide (m.size.y = d.cols)) m = (.ok (), m) := by simp [CostMap.assert, h2]
        rw [Act.bind_ok ua, Act.bind_ok e1, Act.bind_ok ua, Act.bind_ok e2, Act.bind_ok ul]
        simp only [h1, h2, ne_eq, not_true, if_false]
        split
        · rw [Act.bind_ok ul, Act.bind_ok ua]; rfl
        · have ul' : use (fun m => l.read m) (m.setData s d) = (.ok s, m.setData s d) := by
            apply use_some
            rw [← hl]
            cases l <;> rfl
          rw [Act.bind_ok ul, Act.bind_ok ua, Act.bind_ok (rfl : Act.modify _ m = (.ok (), m.setData s d)), Act.bind_ok ul']
          rfl
      · have e1 : CostMap.assert (fun m => decide (m.size.x = d.rows)) m = (.ok (), m) := by simp [CostMap.assert, h1]
        rw [Act.bind_ok ua, Act.bind_ok e1, Act.bind_ok ua]
        simp [Act.bind, CostMap.assert, h1, h2]
    · rw [Act.bind_ok ua]
      simp [Act.bind, CostMap.assert, h1]
  exact ⟨h a d ha, h _ _ rfl⟩

theorem findRef_some {l : NameRef} {f : CostMap K → List String} {m : CostMap K} {s : String} (h : l.read m = some s) :
    findRef l f m = (.ok (if s ∈ f m then some s else none), m) := by
  unfold findRef
  cases hf : f m with
  | nil => simp
  | cons a as =>
    simp only
    rw [Act.bind_ok (use_some (f := fun m => l.read m) h)]; rfl

/-- C105. Erasing a layer whose name is the caller's, a basic layer's or the frame's. -/
theorem C105_erase_partial (m : CostMap K) (l : NameRef) {s : String} (hl : l.read m = some s) (hn : ∀ i, l ≠ .layer i) :
    eraseRef l m = erase s m := by
  have hr : ∀ m' : CostMap K, m'.basicLayers = m.basicLayers → m'.frameId = m.frameId → l.read m' = some s := by
    intro m' h1 h2
    cases l with
    | layer i => exact absurd rfl (hn i)
    | copy s => exact hl
    | basic i => unfold NameRef.read at *; rw [h1]; exact hl
    | frame => unfold NameRef.read at *; rw [h2]; exact hl
  unfold eraseRef erase
  rw [Act.bind_ok (use_some (f := fun m => l.read m) hl)]
  split
  · rfl
  have f1 := findRef_some (f := fun m => m.layers)
    (hr { m with data := fun l' => if l' = s then none else m.data l' } rfl rfl)
  have f2 := findRef_some (f := fun m => m.basicLayers)
    (hr { m with data := fun l' => if l' = s then none else m.data l', layers := eraseFirst s m.layers } rfl rfl)
  rw [Act.bind_ok (rfl : Act.modify _ m = (.ok (), { m with data := fun l' => if l' = s then none else m.data l' })),
    Act.bind_ok f1]
  by_cases h : s ∈ m.layers
  · simp only [h, if_true, not_true, if_false]
    rw [Act.bind_ok (rfl : Act.modify _ _ = (.ok (), _)), Act.bind_ok f2]
    by_cases h' : s ∈ m.basicLayers
    · simp only [h', if_true]; rfl
    · simp only [h', if_false]; rfl
  · simp only [h, if_false, not_false_eq_true, if_true]; rfl

/-- C105. What `map.erase(map.getLayers()[i])` does: the layer is erased, but the name that is then looked for among the basic
layers is that of the layer behind it, and if it was the last one, there is no such name. -/
theorem C105_erase_layer {m : CostMap K} (hc : m.Coherent) {i : Nat} {s : String} (hi : m.layers[i]? = some s) :
    eraseRef (.layer i) m = match m.basicLayers, m.layers[i + 1]? with
      | [], _ => erase s m
      | _ :: _, none => (.ub, { m with data := fun l' => if l' = s then none else m.data l', layers := m.layers.erase s })
      | b :: bs, some t => (.ok true, { m with data := fun l' => if l' = s then none else m.data l',
                                               layers := m.layers.erase s, basicLayers := (b :: bs).erase t }) := by
  have hmem : s ∈ m.layers := List.mem_of_getElem? hi
  have hd : (m.data s).isNone = false := by
    have := (hc.mem_iff s).mp hmem
    cases h : m.data s <;> simp_all
  have hlen : i < m.layers.length := (List.getElem?_eq_some_iff.mp hi).1
  have herase : m.layers.erase s = m.layers.eraseIdx i := by
    have := hc.nodup
    have e := (List.getElem?_eq_some_iff.mp hi).2
    rw [← e]
    exact (List.Nodup.erase_getElem this i hlen)
  have hnext : (m.layers.erase s)[i]? = m.layers[i + 1]? := by
    rw [herase, List.getElem?_eraseIdx_of_ge (le_refl i)]
  unfold eraseRef erase
  rw [Act.bind_ok (use_some (f := fun m => NameRef.read m (.layer i)) hi)]
  simp only [hd, Bool.false_eq_true, if_false]
  have f1 := findRef_some (f := fun m => m.layers) (l := .layer i)
    (m := { m with data := fun l' => if l' = s then none else m.data l' }) hi
  rw [Act.bind_ok (rfl : Act.modify _ m = (.ok (), { m with data := fun l' => if l' = s then none else m.data l' })),
    Act.bind_ok f1]
  simp only [hmem, if_true, not_true, if_false, eraseFirst_eq]
  rw [Act.bind_ok (rfl : Act.modify _ _ = (.ok (), _))]
  cases hb : m.basicLayers with
  | nil =>
    rw [Act.bind_ok (show findRef _ _ _ = (.ok none, _) from by unfold findRef; simp only [hb]; rfl)]
    simp [Act.pure]
  | cons b bs =>
    cases ht : m.layers[i + 1]? with
    | none =>
      simp only [Act.bind, findRef, hb, use, NameRef.read, hnext, ht]
      rfl
    | some t =>
      have f2 := findRef_some (f := fun m => m.basicLayers) (l := .layer i) (s := t)
        (m := { m with data := fun l' => if l' = s then none else m.data l', layers := m.layers.erase s })
        (by rw [← ht, ← hnext]; rfl)
      rw [← hb]
      refine (Act.bind_ok f2).trans ?_
      by_cases h' : t ∈ b :: bs
      · rw [← hb] at h'
        simp only [h', if_true, Act.bind, Act.modify, Act.pure]
        rw [hb]
      · rw [← hb] at h'
        simp only [h', if_false, Act.pure]
        rw [hb]
        rw [hb] at h'
        simp only [List.erase_of_not_mem h']

/-- C105. When erasing by a reference into the list of layers does what erasing by name does: if there are no basic layers, or
neither the layer nor the one behind it, which exists, is a basic layer. -/
theorem C105_erase_layer_iff {m : CostMap K} (hc : m.Coherent) {i : Nat} {s : String} (hi : m.layers[i]? = some s) :
    eraseRef (.layer i) m = erase s m ↔
      m.basicLayers = [] ∨ ∃ t, m.layers[i + 1]? = some t ∧ s ∉ m.basicLayers ∧ t ∉ m.basicLayers := by
  have hmem : s ∈ m.layers := List.mem_of_getElem? hi
  have hd : (m.data s).isNone = false := by
    have := (hc.mem_iff s).mp hmem
    cases h : m.data s <;> simp_all
  have he : erase s m = (.ok true, { m with data := fun l' => if l' = s then none else m.data l',
                                            layers := m.layers.erase s, basicLayers := m.basicLayers.erase s }) := by
    unfold erase
    simp only [hd, Bool.false_eq_true, if_false, hmem, not_true, eraseFirst_eq]
    split
    · rfl
    · rename_i h; rw [List.erase_of_not_mem h]
  rw [C105_erase_layer hc hi]
  cases hb : m.basicLayers with
  | nil => simp
  | cons b bs =>
    cases ht : m.layers[i + 1]? with
    | none => simp [he]
    | some t =>
      have hne : s ≠ t := by
        rintro rfl
        obtain ⟨h1, h2⟩ := List.getElem?_eq_some_iff.mp hi
        obtain ⟨h3, h4⟩ := List.getElem?_eq_some_iff.mp ht
        have := (List.Nodup.getElem_inj_iff hc.nodup).mp (h2.trans h4.symm)
        omega
      simp only [he, Prod.mk.injEq, true_and, CostMap.mk.injEq, and_true, hb]
      simp only [reduceCtorEq, Option.some.injEq, exists_eq_left', false_or]
      constructor
      · intro h
        constructor
        · intro hs
          have e := congrArg (List.count s) h
          rw [List.count_erase_of_ne hne, List.count_erase_self] at e
          have := List.count_pos_iff.mpr hs
          omega
        · intro hs
          have e := congrArg (List.count t) h
          rw [List.count_erase_of_ne hne.symm, List.count_erase_self] at e
          have := List.count_pos_iff.mpr hs
          omega
      · rintro ⟨h1, h2⟩
        rw [List.erase_of_not_mem h1, List.erase_of_not_mem h2]

/-! ## The map itself as the other map -/

theorem extendAxis_self (p l : K) : extendAxis p l p l = (p, l, false) := by simp [extendAxis]

/-- C105. `map.extendToInclude(map)` does nothing. -/
theorem C105_extend_self (m : CostMap K) : extendToIncludeSelf m = (.ok true, m) := by
  simp [extendToIncludeSelf, extendToInclude, extendAxis_self]

theorem Mat.set_self {a : Mat Cost} {i j : Int} {c : Cost} (h : a.get? i j = some c) : a.set i j c = a := by
  refine Mat.ext' rfl rfl fun i' j' => ?_
  rw [Mat.get?_set]
  split
  · rename_i e; obtain ⟨rfl, rfl⟩ := e; rw [h]; rfl
  · rfl

theorem setAt_self {m : CostMap K} (hc : m.Coherent) {l : String} (hl : m.exists l = true) {i : Idx} (hi : i.In m.size) {c : Cost}
    (h : m.at l i = .ok c) : setAt l i c m = (.ok (), m) := by
  obtain ⟨a, ha⟩ := exists_iff.mp hl
  rw [setAt_eq ha ((hc.inRange ha i).mpr hi)]
  rw [at_eq ha] at h
  have hg : a.get? i.x i.y = some c := by
    cases h' : a.get? i.x i.y <;> simp_all
  rw [Mat.set_self hg]
  refine congrArg _ (map_ext ⟨rfl, rfl, rfl, rfl, rfl⟩ ⟨rfl, rfl, rfl⟩ rfl ?_)
  funext l'
  simp only [setData]
  split
  · rename_i e; rw [e, ha]
  · rfl

theorem forEach_same {σ α : Type} {f : α → Act σ Unit} {s : σ} :
    ∀ {xs : List α}, (∀ x ∈ xs, f x s = (.ok (), s)) → Act.forEach f xs s = (.ok (), s)
  | [], _ => rfl
  | x :: xs, h => by
    unfold Act.forEach
    rw [Act.bind_ok (h x (by simp))]
    exact forEach_same fun y hy => h y (by simp [hy])

/-- C105. `map.addDataFrom(map, ...)` changes nothing, whatever the flags, for layers that exist, and is the same with a copy. -/
theorem C105_merge_self_partial {m : CostMap K} (hg : m.Geo) (hc : m.Coherent) (hb : ∀ l ∈ m.basicLayers, m.exists l = true)
    (e w a : Bool) {ls : List String} (hl : a = false → ∀ l ∈ ls, m.exists l = true) :
    addDataFromSelf e w a ls m = (.ok true, m) ∧ addDataFrom m e w a ls m = (.ok true, m) := by
  have hls : ∀ l ∈ (if a then m.layers else ls), m.exists l = true := by
    cases a with
    | false => exact hl rfl
    | true => exact fun l h => (hc.mem_iff l).mp h
  have hadd : Act.forEach addMissing (if a then m.layers else ls) m = (.ok (), m) := by
    refine forEach_same fun l h => ?_
    unfold addMissing
    rw [if_pos ((hc.mem_iff l).mpr (hls l h))]
  have key : ∀ i ∈ m.cells, mergeCellSelf w (if a then m.layers else ls) i m = (.ok (), m) ∧
      mergeCell m w (if a then m.layers else ls) i m = (.ok (), m) := by
    intro i hi
    have hi := (mem_cells hg.start).mp hi
    obtain ⟨v, hv, -⟩ := isValid_eq (m := m) (i := i) fun l h => hc.at_ok (hb l h) hi
    obtain ⟨p, h1, h2, h3⟩ := C10_index_position_index hg hi
    have hlay : ∀ l ∈ (if a then m.layers else ls), mergeLayerSelf i i l m = (.ok (), m) ∧ mergeLayer m i i l m = (.ok (), m) := by
      intro l h
      obtain ⟨c, hcost⟩ := hc.at_ok (hls l h) hi
      have hs := setAt_self hc (hls l h) hi hcost
      have hvl : m.isValidLayer i l = .ok (decide (c ≠ NO_INFORMATION)) := by unfold isValidLayer; rw [hcost]; rfl
      unfold mergeLayerSelf mergeLayer
      rw [Act.bind_ok (show Act.read (fun m => m.isValidLayer i l) m = (.ok (decide (c ≠ NO_INFORMATION)), m) from Prod.ext hvl rfl),
        Act.bind_ok (show Act.lift (m.isValidLayer i l) m = (.ok (decide (c ≠ NO_INFORMATION)), m) from Prod.ext hvl rfl)]
      split
      · exact ⟨rfl, rfl⟩
      · rw [Act.bind_ok (show Act.read (fun m => m.at l i) m = (.ok c, m) from Prod.ext hcost rfl),
          Act.bind_ok (show Act.lift (m.at l i) m = (.ok c, m) from Prod.ext hcost rfl)]
        exact ⟨hs, hs⟩
    unfold mergeCellSelf mergeCell
    rw [Act.bind_ok (show Act.read (fun m => m.isValid i) m = (.ok v, m) from Prod.ext hv rfl),
      Act.bind_ok (show Act.read (fun m => m.isValid i) m = (.ok v, m) from Prod.ext hv rfl)]
    split
    · exact ⟨rfl, rfl⟩
    · simp only [h1, h2, h3, Bool.not_true, Bool.false_eq_true, if_false]
      exact ⟨forEach_same fun l h => (hlay l h).1, forEach_same fun l h => (hlay l h).2⟩
  constructor
  · unfold addDataFromSelf
    have he : (if e then extendToIncludeSelf else Act.pure true : Act (CostMap K) Bool) m = (.ok true, m) := by
      cases e
      · rfl
      · exact C105_extend_self m
    rw [Act.bind_ok he, Act.bind_ok hadd, Act.bind_ok (a := ()) (s' := m)
      ((forCells_eq hg.start _).trans (forEach_same fun i hi => (key i hi).1))]
    rfl
  · unfold addDataFrom
    have he : (if e then extendToInclude m else Act.pure true : Act (CostMap K) Bool) m = (.ok true, m) := by
      cases e
      · rfl
      · exact C105_extend_self m
    rw [Act.bind_ok he, Act.bind_ok hadd, Act.bind_ok (a := ()) (s' := m)
      ((forCells_eq hg.start _).trans (forEach_same fun i hi => (key i hi).2))]
    rfl

end

/-! ## Where it is not so -/

/-- C105 is false of `erase`: after `map.erase(map.getLayers()[0])` of a map whose first layer is basic, the layer is gone but
still a basic layer, and `isValid` throws for every cell. By name, all is well. -/
theorem C105_false_erase :
    NameRef.read Demo.base (.layer 0) = some "a" ∧
    (eraseRef (.layer 0) Demo.base).1 = .ok true ∧ (eraseRef (.layer 0) Demo.base).2.exists "a" = false ∧
    (eraseRef (.layer 0) Demo.base).2.basicLayers = ["a"] ∧
    (eraseRef (.layer 0) Demo.base).2.isValid ⟨0, 0⟩ = .thrown .outOfRange ∧
    (erase "a" Demo.base).2.basicLayers = [] ∧ (erase "a" Demo.base).2.isValid ⟨0, 0⟩ = .ok false := by
  refine ⟨by decide +kernel, by decide +kernel, by decide +kernel, by decide +kernel, by decide +kernel, by decide +kernel,
    by decide +kernel⟩

/-- Another layer loses its status. -/
theorem C105_false_erase_other :
    (eraseRef (.layer 0) (Demo.base.setBasicLayers ["b"])).2.basicLayers = [] ∧
    (erase "a" (Demo.base.setBasicLayers ["b"])).2.basicLayers = ["b"] := by
  refine ⟨by decide +kernel, by decide +kernel⟩

/-- For the last layer it is undefined behaviour: the name is read after it has been destroyed. -/
theorem C105_false_erase_last : NameRef.read Demo.base (.layer 1) = some "b" ∧ (eraseRef (.layer 1) Demo.base).1 = .ub ∧
    (erase "b" Demo.base).1 = .ok true := by
  refine ⟨by decide +kernel, by decide +kernel, by decide +kernel⟩

/-- C105 is false of `addDataFrom` for layers that the map does not have: with a copy it throws, with the map itself it has added
the layer before it looks. -/
theorem C105_false_merge_missing :
    (addDataFrom Demo.base false true false ["c"] Demo.base).1 = .thrown .outOfRange ∧
    (addDataFromSelf false true false ["c"] Demo.base).1 = .ok true ∧
    (addDataFromSelf false true false ["c"] Demo.base).2.layers = ["a", "b", "c"] := by
  refine ⟨by decide +kernel, by decide +kernel, by decide +kernel⟩

/-! ## Non-vacuity -/

/-- Twice the resolution in the same place. -/
example : (setGeometryRef .own (1 / 4) .own Demo.rotated).2.size = ⟨10, 8⟩ := by
  rw [(C105_geometry Demo.rotated .own (1 / 4) .own .start).1]; decide +kernel

/-- A layer is copied under the name of the frame. -/
example : (addRef .frame (.layer "a") (Demo.base.setFrameId "map")).2.at "map" ⟨3, 2⟩ = .ok 32 := by
  obtain ⟨d, hd⟩ : ∃ d, MatRef.read (Demo.base.setFrameId "map") (.layer "a") = some d :=
    Option.isSome_iff_exists.mp (by decide +kernel)
  rw [(C105_add _ .frame (s := "map") rfl (.layer "a") hd 0).1]
  have : d = ((Demo.base.setFrameId "map").data "a").getD Mat.empty := by
    show d = Option.getD (MatRef.read (Demo.base.setFrameId "map") (.layer "a")) Mat.empty
    rw [hd]; rfl
  rw [this]; decide +kernel

/-- A basic layer's name. -/
example : (eraseRef (.basic 0) Demo.base).2.layers = ["b"] := by
  rw [C105_erase_partial _ (.basic 0) (s := "a") (by decide +kernel) (by intro i h; cases h)]; decide +kernel

/-- No basic layers. -/
example : eraseRef (.layer 1) (Demo.base.setBasicLayers []) = erase "b" (Demo.base.setBasicLayers []) :=
  (C105_erase_layer_iff (m := Demo.base.setBasicLayers []) (i := 1) (s := "b") ⟨Demo.base_coherent.1, Demo.base_coherent.2, Demo.base_coherent.3⟩ (by decide +kernel)).mpr (.inl rfl)

/-- A rotated map with itself. -/
example : (addDataFromSelf true true true [] Demo.rotated).1 = .ok true :=
  congrArg Prod.fst (C105_merge_self_partial Demo.rotated_geo Demo.rotated_coherent (by decide +kernel) true true true (by simp)).1

end CostMapModel

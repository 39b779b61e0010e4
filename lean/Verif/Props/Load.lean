import Verif.Model.Crash
import Verif.Lemmas.Load

/-!
# C68, C70: loading any bundle, and what an interrupted save leaves behind
-/

set_option linter.unusedSectionVars false

namespace CostMapModel
open CostMap
variable {K : Type} [Field K] [LinearOrder K] [IsStrictOrderedRing K] [FloorRing K]

theorem mapInsert_same {k v : String} : ∀ {ps : List (String × String)}, ps.Pairwise (fun p q => p.1 < q.1) →
    k ∈ ps.map Prod.fst → mapInsert k v ps = ps
  | [], _, h => by simp at h
  | (k', v') :: ps, hs, h => by
    rw [List.pairwise_cons] at hs
    unfold mapInsert
    rw [List.map_cons, List.mem_cons] at h
    rcases h with h | h
    · rw [if_neg (by rw [show k = k' from h]; exact lt_irrefl _), if_pos h]
    · obtain ⟨q, hq, rfl⟩ := List.mem_map.1 h
      have := hs.1 q hq
      rw [if_neg (not_lt.2 (le_of_lt this)), if_neg (ne_of_gt this), mapInsert_same hs.2 h]

theorem readLayers_any : ∀ (entries : List (String × String)) {acc : List (String × String)},
    acc.Pairwise (fun p q => p.1 < q.1) →
    ∃ ps, readLayers (entries.map fun p => ⟨some p.1, some p.2⟩) acc = .ok ps ∧ ps.Pairwise (fun p q => p.1 < q.1) ∧
      ∀ l f, (l, f) ∈ ps ↔ (l, f) ∈ acc ∨ (l ∉ acc.map Prod.fst ∧ entries.lookup l = some f)
  | [], acc, hs => ⟨acc, rfl, hs, fun l f => by simp⟩
  | (k, v) :: entries, acc, hs => by
    obtain ⟨ps, h1, h2, h3⟩ := readLayers_any entries (mapInsert_sorted (k := k) (v := v) hs).1
    refine ⟨ps, h1, h2, fun l f => ?_⟩
    rw [h3, List.lookup_cons]
    by_cases hk : k ∈ acc.map Prod.fst
    · rw [mapInsert_same hs hk]
      by_cases hl : l = k
      · subst hl; simp [hk]
      · rw [show (l == k) = false by simpa using hl]
    · have hp := mapInsert_perm (v := v) hk
      rw [hp.mem_iff, (hp.map Prod.fst).mem_iff]
      by_cases hl : l = k
      · subst hl
        have : ∀ f, (l, f) ∉ acc := fun f hf => hk (List.mem_map_of_mem (f := Prod.fst) hf)
        simp [this, hk, eq_comm]
      · rw [show (l == k) = false by simpa using hl]
        simp [hl]

/-! ## C70 -/

/-- C70. Loading any bundle whose metadata is usable into any map: frame, centre, resolution and size are those of the
bundle; each layer the bundle lists is there; a layer whose image has the size of the map holds what its pixels stand for, a layer
whose image is missing, unreadable or of another size is unknown, whatever happens to the other layers; when a name is listed
twice, the first entry counts. Layers that were in the map before and are not in the bundle are unknown. -/
theorem C70_load_any_bundle (cv : Cv) {rf : K → K} (hrf : Close24 rf) {files : Files K} {frame : String} {cx cy r : K}
    {nx ny : Nat} {entries : List (String × String)}
    (hyaml : files.yaml = .parsed ⟨some frame, some cx, some cy, some r, some nx, some ny,
      some (entries.map fun p => ⟨some p.1, some p.2⟩)⟩)
    (hr : 0 < r) (hx : 0 < nx) (hy : 0 < ny) (hx' : nx < 2 ^ 23) (hy' : ny < 2 ^ 23) {e : CostMap K} (he : e.Coherent) :
    ∃ m', fromImageBundle cv rf files e = (.ok (), m') ∧ m'.Coherent ∧ m'.Geo ∧ m'.frameId = frame ∧ m'.timestamp = 0 ∧
      m'.position = ⟨cx, cy⟩ ∧ m'.resolution = rf r ∧ m'.size = ⟨nx, ny⟩ ∧ m'.startIndex = 0 ∧
      m'.basicLayers = e.basicLayers ∧ (∀ l, l ∈ m'.layers ↔ l ∈ e.layers ∨ l ∈ entries.map Prod.fst) ∧
      (∀ l, l ∈ e.layers → l ∉ entries.map Prod.fst → ∀ i, i.In m'.size → m'.at l i = .ok NO_INFORMATION) ∧
      ∀ l f, entries.lookup l = some f →
        (∀ img, files.images f = some img → (FileImage.toImage (some img)).height = nx →
          (FileImage.toImage (some img)).width = ny → ∀ i, i.In m'.size →
            ∃ c, (FileImage.toImage (some img)).costAt cv i = some c ∧ m'.at l i = .ok c) ∧
        ((∀ img, files.images f = some img → ¬ ((FileImage.toImage (some img)).height = nx ∧
          (FileImage.toImage (some img)).width = ny)) → ∀ i, i.In m'.size → m'.at l i = .ok NO_INFORMATION) := by
  obtain ⟨ps, p1, p2, p3⟩ := readLayers_any entries (acc := []) List.Pairwise.nil
  simp only [List.not_mem_nil, List.map_nil, not_false_eq_true, true_and, false_or] at p3
  have hb : readInfo rf files.yaml = .ok ⟨frame, ⟨cx, cy⟩, rf r, nx, ny, ps⟩ := by
    simp only [hyaml, readInfo, Option.getD_some, p1, Res.bind_ok]
  have hnd : (ps.map Prod.fst).Nodup := (List.pairwise_map.2 p2).imp fun h => ne_of_lt h
  obtain ⟨m', h1, h2, h3, h4, h5, h6, h7, h8, h9, -, h11, h12, h13, h14⟩ := fromImageBundle_any cv hrf hb (hrf.pos hr) hx hy hx'
    hy' hnd he
  simp only at h4 h7 h8 h9 h12 h13 h14
  have mem : ∀ l, l ∈ ps.map Prod.fst ↔ l ∈ entries.map Prod.fst := by
    intro l
    constructor
    · intro h
      obtain ⟨⟨l', f⟩, hp, rfl⟩ := List.mem_map.1 h
      have hlk := (p3 _ _).1 hp
      simp only
      obtain ⟨as, bs, hab, -⟩ := List.lookup_eq_some_iff.1 hlk
      exact List.mem_map.2 ⟨(l', f), by rw [hab]; simp, rfl⟩
    · intro h
      cases hlk : entries.lookup l with
      | none =>
        obtain ⟨p, hp, rfl⟩ := List.mem_map.1 h
        have := List.lookup_eq_none_iff.1 hlk p hp
        simp at this
      | some f => exact List.mem_map.2 ⟨(l, f), (p3 l f).2 hlk, rfl⟩
  refine ⟨m', h1, h2, h3, h4, h5, h7, h8, h9, h11, h6, fun l => ?_, fun l hl hn i hi => ?_, fun l f hlf => ⟨?_, ?_⟩⟩
  · rw [h12, List.mem_append, List.mem_filter, mem]
    by_cases hl : l ∈ e.layers <;> simp [hl]
  · exact h13 l i hl (fun h => hn ((mem l).1 h)) hi
  · intro img himg hh hw i hi
    have := h14 (l, f) ((p3 l f).2 hlf) i hi
    simp only [himg] at this
    rw [loadedCost, h9, if_pos (by rw [hh, hw]; exact ⟨rfl, rfl⟩)] at this
    have hsome : ((FileImage.toImage (some img)).costAt cv i).isSome := by
      rw [h9] at hi
      obtain ⟨i1, i2, i3, i4⟩ := hi
      simp only at i2 i4
      cases img <;>
      · simp only [FileImage.toImage, Image.costAt, Option.isSome_map, Image.height, Image.width] at hh hw ⊢
        rw [Mat.get?_isSome_iff]
        exact ⟨i1, by omega, i3, by omega⟩
    obtain ⟨c, hc⟩ := Option.isSome_iff_exists.1 hsome
    refine ⟨c, hc, ?_⟩
    rw [this, hc]; rfl
  · intro hbad i hi
    have := h14 (l, f) ((p3 l f).2 hlf) i hi
    simp only at this
    rw [this, loadedCost, h9]
    cases himg : files.images f with
    | none =>
      rw [if_neg]
      simp only [FileImage.toImage, Image.height, Mat.empty]
      omega
    | some img =>
      rw [if_neg]
      intro h
      exact hbad img himg ⟨by have := h.1; simp only at this; omega, by have := h.2; simp only at this; omega⟩

namespace Demo
/-- A bundle with an image that is missing, one of the wrong size and a name that is listed twice. -/
def files : Files ℚ := ⟨.parsed ⟨some "map", some 0, some 1, some (1 / 2), some 1, some 2,
    some [⟨some "b", some "good.png"⟩, ⟨some "a", some "missing.png"⟩, ⟨some "b", some "wrong.png"⟩, ⟨some "c", some "wrong.png"⟩]⟩,
  fun n => if n = "good.png" then some (.gray ⟨1, 2, [0, 255], rfl⟩)
    else if n = "wrong.png" then some (.gray ⟨2, 2, [0, 255, 0, 0], rfl⟩) else none⟩
end Demo

example : ∃ m', fromImageBundle Demo.cv id Demo.files Demo.base = (.ok (), m') ∧ m'.at "b" ⟨0, 0⟩ = .ok LETHAL_OBSTACLE ∧
    m'.at "b" ⟨0, 1⟩ = .ok FREE_SPACE ∧ m'.at "c" ⟨0, 0⟩ = .ok NO_INFORMATION := by
  obtain ⟨m', h1, -, -, -, -, -, -, h2, -, -, -, -, h3⟩ := C70_load_any_bundle Demo.cv close24_id (files := Demo.files)
    (entries := [("b", "good.png"), ("a", "missing.png"), ("b", "wrong.png"), ("c", "wrong.png")]) rfl (by decide +kernel)
    (by decide) (by decide) (by decide) (by decide) Demo.base_coherent
  have g := (h3 "b" "good.png" (by decide)).1 (.gray ⟨1, 2, [0, 255], rfl⟩) rfl rfl rfl
  have w := (h3 "c" "wrong.png" (by decide)).2 (by
    intro img himg
    cases (Option.some_inj.1 himg : FileImage.gray ⟨2, 2, [0, 255, 0, 0], rfl⟩ = img)
    decide)
  rw [h2] at g w
  obtain ⟨c, c1, c2⟩ := g ⟨0, 0⟩ (by decide)
  obtain ⟨d, d1, d2⟩ := g ⟨0, 1⟩ (by decide)
  refine ⟨m', h1, ?_, ?_, w ⟨0, 0⟩ (by decide)⟩
  · rw [c2, ← Option.some_inj.1 (c1.symm.trans (by decide +kernel : _ = some LETHAL_OBSTACLE))]
  · rw [d2, ← Option.some_inj.1 (d1.symm.trans (by decide +kernel : _ = some FREE_SPACE))]

/-! ## C68 -/

theorem at_outside {m : CostMap K} (hc : m.Coherent) {l : String} {i : Idx} (hi : ¬ i.In m.size) :
    m.at l i = if l ∈ m.layers then .ub else .thrown .outOfRange := by
  cases ha : m.data l with
  | none => rw [at_none ha, if_neg (fun h => by have := (hc.mem_iff l).1 h; rw [ha] at this; cases this)]
  | some a =>
    rw [at_eq ha, if_pos ((hc.mem_iff l).2 (by rw [ha]; rfl))]
    have hd := hc.dims l a ha
    have : a.get? i.x i.y = none := by
      by_contra h
      have := (Mat.get?_isSome_iff a i.x i.y).1 (Option.isSome_iff_ne_none.2 h)
      unfold Mat.InRange at this
      exact hi ⟨this.1, by omega, this.2.2.1, by omega⟩
    rw [this]; rfl

theorem imageStates_spec {m : CostMap K} : ∀ {ls : List String} {files f : Files K}, ls.Nodup → f ∈ m.imageStates ls files →
    f.yaml = files.yaml ∧ ∀ l, f.images (l ++ ".png") = files.images (l ++ ".png") ∨
      l ∈ ls ∧ (f.images (l ++ ".png") = none ∨
        ∃ a, m.data l = some a ∧ f.images (l ++ ".png") = some (.bgra (a.mapIdx fun _ _ c => savePixel c)))
  | [], files, f, _, h => by
    rw [imageStates, List.mem_singleton] at h
    subst h
    exact ⟨rfl, fun l => .inl rfl⟩
  | l :: ls, files, f, hn, h => by
    rw [List.nodup_cons] at hn
    rw [imageStates] at h
    have set : ∀ im l', (setImage files (l ++ ".png") im).images (l' ++ ".png") =
        if l' = l then im else files.images (l' ++ ".png") := by
      intro im l'
      simp only [setImage]
      by_cases hl : l' = l
      · rw [if_pos (by rw [hl]), if_pos hl]
      · rw [if_neg (fun h => hl (png_inj h)), if_neg hl]
    cases ha : m.data l with
    | none =>
      rw [ha] at h
      simp only [List.mem_singleton] at h
      subst h
      exact ⟨rfl, fun l => .inl rfl⟩
    | some a =>
      rw [ha] at h
      simp only [List.mem_cons] at h
      rcases h with rfl | rfl | h
      · exact ⟨rfl, fun l => .inl rfl⟩
      · refine ⟨rfl, fun l' => ?_⟩
        rw [set]
        by_cases hl : l' = l
        · rw [if_pos hl]; exact .inr ⟨by simp [hl], .inl rfl⟩
        · rw [if_neg hl]; exact .inl rfl
      · obtain ⟨h1, h2⟩ := imageStates_spec hn.2 h
        refine ⟨h1, fun l' => ?_⟩
        rcases h2 l' with h2 | ⟨hm, h2⟩
        · rw [h2, set]
          by_cases hl : l' = l
          · rw [if_pos hl]; exact .inr ⟨by simp [hl], .inr ⟨a, by rw [hl]; exact ha, rfl⟩⟩
          · rw [if_neg hl]; exact .inl rfl
        · exact .inr ⟨by simp [hm], h2⟩

theorem imageStates_last {m : CostMap K} : ∀ {ls : List String} {files : Files K} {im : String → Option FileImage},
    m.saveLayers ls files.images = .ok im → (m.imageStates ls files).getLast? = some { files with images := im }
  | [], files, im, h => by cases h; rfl
  | l :: ls, files, im, h => by
    rw [saveLayers] at h
    rw [imageStates]
    cases ha : m.data l with
    | none => rw [CostMap.get, ha] at h; cases h
    | some a =>
      rw [CostMap.get, ha] at h
      simp only [Res.bind_ok] at h
      split at h
      · have := imageStates_last (files := setImage files (l ++ ".png") (some (.bgra (a.mapIdx fun _ _ c => savePixel c)))) h
        simp only
        have ne : m.imageStates ls (setImage files (l ++ ".png") (some (.bgra (a.mapIdx fun _ _ c => savePixel c)))) ≠ [] := by
          intro h; rw [h] at this; cases this
        rw [List.getLast?_cons_cons, List.getLast?_cons_of_ne_nil ne, this]
        rfl
      · cases h

/-- The last state of a save is the result of `toImageBundle`. -/
theorem C68_states_end {txt : K → K} {m : CostMap K} {files files' : Files K} (h : m.toImageBundle txt files = .ok files') :
    (m.saveStates txt files).getLast? = some files' := by
  unfold toImageBundle at h
  cases hs : m.saveLayers m.layers files.images with
  | ok im =>
    rw [hs, Res.bind_ok] at h
    cases h
    have := imageStates_last (files := { files with yaml := m.savedYaml txt }) hs
    have ne : m.imageStates m.layers { files with yaml := m.savedYaml txt } ≠ [] := by
      intro h; rw [h] at this; cases this
    rw [saveStates, List.getLast?_cons_cons, List.getLast?_cons_of_ne_nil ne, this]
    rfl
  | _ => rw [hs] at h; cases h

/-- C68, when the directory holds no images of the layers yet: whenever a save is interrupted, loading what is in the directory
finds the directory as it was before the save, or throws and leaves the map alone, or gives the map a complete save would
have given, except that some of the layers are unknown everywhere. The full statement also has directories that hold images of an
earlier save; see `C68_false`. -/
theorem C68_interrupted_save_partial (cv : Cv) {rf txt : K → K} (hrf : Close24 rf) {m : CostMap K} (hg : m.Geo) (hc : m.Coherent)
    (ht : 0 < txt m.resolution) (hx : m.size.x < 2 ^ 23) (hy : m.size.y < 2 ^ 23) {files : Files K}
    (hold : ∀ l ∈ m.layers, files.images (l ++ ".png") = none) {e : CostMap K} (he : e.Coherent) :
    ∃ files' full, m.toImageBundle txt files = .ok files' ∧ fromImageBundle cv rf files' e = (.ok (), full) ∧
      ∀ f ∈ m.saveStates txt files, f = files ∨ (∃ x, fromImageBundle cv rf f e = (.thrown x, e)) ∨
        ∃ m', fromImageBundle cv rf f e = (.ok (), m') ∧ SameGeometry full m' ∧ SameMeta full m' ∧ m'.layers = full.layers ∧
          ∀ l, (∀ i, m'.at l i = full.at l i) ∨ ∀ i, i.In m'.size → m'.at l i = .ok NO_INFORMATION := by
  obtain ⟨images, i1, i2, -⟩ := saveLayers_run hc (ls := m.layers) files.images fun l hl => (hc.mem_iff l).1 hl
  obtain ⟨ps, p1, p2, p3⟩ := readLayers_saved (acc := []) hc.nodup (by simp) List.Pairwise.nil
  rw [List.append_nil] at p2
  have hn : (ps.map Prod.fst).Nodup := (List.pairwise_map.2 p3).imp fun h => ne_of_lt h
  have hinfo : readInfo rf (m.savedYaml txt) = .ok ⟨m.frameId, ⟨txt m.position.x, txt m.position.x⟩, rf (txt m.resolution),
      m.size.x.toNat, m.size.y.toNat, ps⟩ := by
    simp only [savedYaml, readInfo, Option.getD_some, p1, Res.bind_ok]
  have load : ∀ {f : Files K}, f.yaml = m.savedYaml txt → _ := fun {f} hf =>
    fromImageBundle_any cv hrf (files := f) (hf ▸ hinfo) (hrf.pos ht) (by have := hg.size_x; simp only; omega)
      (by have := hg.size_y; simp only; omega) (by simp only; omega) (by simp only; omega) hn he
  obtain ⟨full, a1, a2, a3, a4, a5, a6, a7, a8, a9, a10, a11, a12, a13, a14⟩ := load (f := ⟨m.savedYaml txt, images⟩) rfl
  refine ⟨⟨m.savedYaml txt, images⟩, full, by simp only [toImageBundle, i1, Res.bind_ok]; rfl, a1, fun f hf => ?_⟩
  rw [saveStates, List.mem_cons, List.mem_cons] at hf
  rcases hf with rfl | rfl | hf
  · exact .inl rfl
  · obtain ⟨x, h, -⟩ := C56_bad_file_throws cv rf { files with yaml := .unparsable } e trivial
    exact .inr (.inl ⟨x, h⟩)
  · obtain ⟨s1, s2⟩ := imageStates_spec hc.nodup hf
    obtain ⟨m', b1, b2, b3, b4, b5, b6, b7, b8, b9, b10, b11, b12, b13, b14⟩ := load (f := f) s1
    have hsz : m'.size = full.size := by rw [a9, b9]
    refine .inr (.inr ⟨m', b1, ⟨by rw [a10, b10], by rw [a8, b8], by rw [a7, b7], hsz, by rw [a11, b11]⟩,
      ⟨by rw [a4, b4], by rw [a5, b5], by rw [a6, b6]⟩, by rw [a12, b12], fun l => ?_⟩)
    -- outside the map and for missing layers both fail in the same way
    have out : (∀ i, i.In m'.size → m'.at l i = full.at l i) → ∀ i, m'.at l i = full.at l i := by
      intro h i
      by_cases hi : i.In m'.size
      · exact h i hi
      · rw [at_outside b2 hi, at_outside a2 (hsz ▸ hi), a12, b12]
    by_cases hl : l ∈ m.layers
    · have hp : bundleEntry l ∈ ps := p2.mem_iff.2 (List.mem_map_of_mem hl)
      have new : f.images (l ++ ".png") = none ∨ f.images (l ++ ".png") = images (l ++ ".png") := by
        rcases s2 l with h | ⟨-, h | ⟨a, ha, h⟩⟩
        · exact .inl (h.trans (hold l hl))
        · exact .inl h
        · exact .inr (by rw [h, i2 l a hl ha])
      rcases new with h | h
      · right
        intro i hi
        have := b14 _ hp i hi
        simp only [bundleEntry, h] at this
        rw [this, loadedCost, if_neg]
        rw [b9]
        simp only [FileImage.toImage, Image.height, Mat.empty]
        have := hg.size_x
        omega
      · refine .inl (out fun i hi => ?_)
        have h1 := b14 _ hp i hi
        have h2 := a14 _ hp i (hsz ▸ hi)
        simp only [bundleEntry] at h1 h2
        rw [h1, h2, h, hsz]
    · have hps : l ∉ ps.map Prod.fst := by
        intro h
        obtain ⟨q, hq, rfl⟩ := List.mem_map.1 h
        obtain ⟨l', hl', rfl⟩ := List.mem_map.1 (p2.mem_iff.1 hq)
        exact hl hl'
      refine .inl (out fun i hi => ?_)
      by_cases hle : l ∈ e.layers
      · rw [b13 l i hle hps hi, a13 l i hle hps (hsz ▸ hi)]
      · have no : ∀ {q : CostMap K}, q.Coherent → q.layers = full.layers → q.at l i = .thrown .outOfRange := by
          intro q hq hql
          apply at_none
          by_contra h
          have := (hq.mem_iff l).2 (Option.isSome_iff_ne_none.2 h)
          rw [hql, a12] at this
          simp [hle] at this
          obtain ⟨x, hx⟩ := this
          exact hps (List.mem_map.2 ⟨_, hx, rfl⟩)
        rw [no b2 (by rw [a12, b12]), no a2 rfl]

namespace Demo
/-- A map of 1 x 2 cells with the cost `c` everywhere. -/
def two (c : Cost) : CostMap ℚ :=
  ⟨"map", 0, fun l => if l = "a" then some ⟨1, 2, [c, c], rfl⟩ else none, ["a"], [], ⟨1 / 2, 1⟩, 1 / 2, ⟨1, 1⟩, ⟨1, 2⟩, 0⟩

theorem two_geo (c : Cost) : (two c).Geo :=
  ⟨by show (0 : ℚ) < 1 / 2; norm_num, by show (0 : Int) < 1; decide, by show (0 : Int) < 2; decide,
    by show (1 / 2 : ℚ) = (1 : Int) * (1 / 2); norm_num, by show (1 : ℚ) = (2 : Int) * (1 / 2); norm_num,
    by show Idx.In 0 ⟨1, 2⟩; decide⟩

theorem two_coherent (c : Cost) : (two c).Coherent := by
  refine ⟨by simp [two], fun l => ?_, fun l a ha => ?_⟩
  · by_cases h : l = "a" <;> simp [two, h]
  · by_cases h : l = "a"
    · have ha : some _ = some a := (if_pos h).symm.trans ha
      cases ha
      exact ⟨rfl, rfl⟩
    · simp [two, h] at ha

/-- The directory after a map of lethal cells was saved. -/
def oldFiles : Files ℚ := ⟨(two 254).savedYaml id, fun n =>
  if n = "a.png" then some (.bgra ⟨1, 2, [savePixel 254, savePixel 254], rfl⟩) else none⟩
end Demo

/-- C68 is false for a directory that holds an earlier save, and this is one: a map of free cells is saved over a map
of lethal cells and interrupted after the YAML file is written. Loading gives lethal cells and no error. -/
theorem C68_false : ¬ ∀ (m : CostMap ℚ) (files : Files ℚ), m.Geo → m.Coherent →
    ∃ files' full, m.toImageBundle id files = .ok files' ∧ fromImageBundle Demo.cv id files' (CostMap.new []) = (.ok (), full) ∧
      ∀ f ∈ m.saveStates id files, f = files ∨
        (∃ x, fromImageBundle Demo.cv id f (CostMap.new []) = (.thrown x, CostMap.new [])) ∨
        ∃ m', fromImageBundle Demo.cv id f (CostMap.new []) = (.ok (), m') ∧
          ∀ l, (∀ i, m'.at l i = full.at l i) ∨ ∀ i, i.In m'.size → m'.at l i = .ok NO_INFORMATION := by
  intro h
  obtain ⟨files', full, g1, g2, key⟩ := h { Demo.two 0 with frameId := "other" } Demo.oldFiles
    ⟨(Demo.two_geo 0).res_pos, (Demo.two_geo 0).size_x, (Demo.two_geo 0).size_y, (Demo.two_geo 0).len_x, (Demo.two_geo 0).len_y,
      (Demo.two_geo 0).start⟩ ⟨(Demo.two_coherent 0).nodup, (Demo.two_coherent 0).mem_iff, (Demo.two_coherent 0).dims⟩
  have key := key { Demo.oldFiles with yaml := savedYaml id { Demo.two 0 with frameId := "other" } }
    (by unfold saveStates; exact List.mem_cons_of_mem _ (List.mem_cons_of_mem _ (by unfold imageStates; exact List.mem_cons_self)))
  -- what the complete save would give
  have full0 : full.at "a" ⟨0, 0⟩ = .ok 0 := by
    obtain ⟨m', h1, -, -, -, -, -, -, h2, -, -, -, -, h3⟩ := C70_load_any_bundle Demo.cv close24_id (files := files')
      (e := CostMap.new []) (entries := [("a", "a.png")]) (by cases g1; rfl) (by decide +kernel) (by decide) (by decide)
      (by decide) (by decide) (new_coherent (ls := []) (by simp))
    rw [g2] at h1; cases h1
    obtain ⟨c, c1, c2⟩ := (h3 "a" "a.png" rfl).1 (.bgra ⟨1, 2, [savePixel 0, savePixel 0], rfl⟩) (by cases g1; rfl) rfl rfl ⟨0, 0⟩
      (by rw [h2]; decide)
    rw [c2, ← Option.some_inj.1 (c1.symm.trans (by decide +kernel : (FileImage.toImage (some (.bgra ⟨1, 2,
      [savePixel 0, savePixel 0], rfl⟩))).costAt Demo.cv ⟨0, 0⟩ = some 0))]
  obtain ⟨m', h1, -, -, -, -, -, -, h2, -, -, -, -, h3⟩ := C70_load_any_bundle Demo.cv close24_id
    (files := { Demo.oldFiles with yaml := savedYaml id { Demo.two 0 with frameId := "other" } }) (e := CostMap.new [])
    (entries := [("a", "a.png")]) rfl (by decide +kernel) (by decide) (by decide) (by decide) (by decide)
    (new_coherent (ls := []) (by simp))
  obtain ⟨c, c1, c2⟩ := (h3 "a" "a.png" rfl).1 (.bgra ⟨1, 2, [savePixel 254, savePixel 254], rfl⟩) rfl rfl rfl ⟨0, 0⟩
    (by rw [h2]; decide)
  have hc : c = 254 := Option.some_inj.1 (c1.symm.trans (by decide +kernel : (FileImage.toImage (some (.bgra ⟨1, 2,
    [savePixel 254, savePixel 254], rfl⟩))).costAt Demo.cv ⟨0, 0⟩ = some 254))
  rcases key with h | ⟨x, h⟩ | ⟨m'', h, h'⟩
  · have := congrArg (fun f : Files ℚ => match f.yaml with | .parsed b => b.frameId | _ => none) h
    revert this
    decide
  · rw [h1] at h; cases h
  · rw [h1] at h; cases h
    rcases h' "a" with h | h
    · have := h ⟨0, 0⟩
      rw [full0, c2, hc] at this
      revert this; decide
    · have := h ⟨0, 0⟩ (by rw [h2]; decide)
      rw [c2, hc] at this
      revert this; decide

/-- The directory holds something else. -/
example : ∃ full, ∀ f ∈ (Demo.two 9).saveStates id Demo.files, f = Demo.files ∨
    (∃ x, fromImageBundle Demo.cv toFloat f Demo.base = (.thrown x, Demo.base)) ∨
    ∃ m', fromImageBundle Demo.cv toFloat f Demo.base = (.ok (), m') ∧ SameGeometry full m' := by
  obtain ⟨files', full, -, -, h⟩ := C68_interrupted_save_partial Demo.cv close24_toFloat (txt := id) (Demo.two_geo 9)
    (Demo.two_coherent 9) (by decide +kernel) (by decide) (by decide) (files := Demo.files) (by decide) Demo.base_coherent
  refine ⟨full, fun f hf => ?_⟩
  rcases h f hf with h | h | ⟨m', h, h', -⟩
  · exact .inl h
  · exact .inr (.inl h)
  · exact .inr (.inr ⟨m', h, h'⟩)
example : ((Demo.two 9).saveStates id Demo.files).length = 5 := by rfl

end CostMapModel

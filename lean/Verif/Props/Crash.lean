import Verif.Spec.Crash
import Verif.Props.Load

/-!
# C68: a save over any earlier directory that is interrupted
-/

set_option linter.unusedSectionVars false

namespace CostMapModel
open CostMap
variable {K : Type} [Field K] [LinearOrder K] [IsStrictOrderedRing K] [FloorRing K]

/-- `f` is the directory `files` in which the images of `done` were replaced by those of `m` and, when `broken`, the first one of
`rest` was truncated. -/
structure Progress (m : CostMap K) (files f : Files K) (done rest : List String) (broken : Bool) : Prop where
  yaml : f.yaml = files.yaml
  new : ∀ l ∈ done, ∃ a, m.data l = some a ∧ f.images (l ++ ".png") = some (.bgra (a.mapIdx fun _ _ c => savePixel c))
  torn : broken = true → ∀ l, rest.head? = some l → f.images (l ++ ".png") = none
  old : ∀ l ∉ done, (broken = true → rest.head? ≠ some l) → f.images (l ++ ".png") = files.images (l ++ ".png")

theorem setImage_png (files : Files K) (l : String) (im : Option FileImage) (l' : String) :
    (setImage files (l ++ ".png") im).images (l' ++ ".png") = if l' = l then im else files.images (l' ++ ".png") := by
  simp only [setImage]
  by_cases hl : l' = l
  · rw [if_pos (by rw [hl]), if_pos hl]
  · rw [if_neg (fun h => hl (png_inj h)), if_neg hl]

theorem progress_cons {m : CostMap K} {files f : Files K} {l : String} {a : Mat Cost} (ha : m.data l = some a)
    {done rest : List String} {broken : Bool} (hl : l ∉ done ++ rest)
    (h : Progress m (setImage files (l ++ ".png") (some (.bgra (a.mapIdx fun _ _ c => savePixel c)))) f done rest broken) :
    Progress m files f (l :: done) rest broken := by
  rw [List.mem_append, not_or] at hl
  refine ⟨h.yaml, fun l' hl' => ?_, h.torn, fun l' hl' hh => ?_⟩
  · rcases List.mem_cons.1 hl' with rfl | hl'
    · refine ⟨a, ha, ?_⟩
      rw [h.old l' hl.1 (fun _ h => hl.2 (List.mem_of_head? h)), setImage_png, if_pos rfl]
    · exact h.new l' hl'
  · rw [List.mem_cons, not_or] at hl'
    rw [h.old l' hl'.2 hh, setImage_png, if_neg hl'.1]

theorem imageStates_progress {m : CostMap K} : ∀ {ls : List String} {files f : Files K}, ls.Nodup →
    (∀ l ∈ ls, (m.data l).isSome) → f ∈ m.imageStates ls files →
    ∃ done rest broken, ls = done ++ rest ∧ Progress m files f done rest broken
  | [], files, f, _, _, h => by
    rw [imageStates, List.mem_singleton] at h
    subst h
    exact ⟨[], [], false, rfl, rfl, by simp, by simp, fun _ _ _ => rfl⟩
  | l :: ls, files, f, hn, hd, h => by
    rw [List.nodup_cons] at hn
    obtain ⟨a, ha⟩ := Option.isSome_iff_exists.1 (hd l (by simp))
    rw [imageStates, ha] at h
    simp only [List.mem_cons] at h
    rcases h with rfl | rfl | h
    · exact ⟨[], l :: ls, false, rfl, rfl, by simp, by simp, fun _ _ _ => rfl⟩
    · refine ⟨[], l :: ls, true, rfl, rfl, by simp, fun _ l' hl' => ?_, fun l' _ hh => ?_⟩
      · rw [List.head?_cons, Option.some_inj] at hl'
        rw [setImage_png, if_pos hl'.symm]
      · rw [setImage_png, if_neg (fun h => hh rfl (by rw [h]; rfl))]
    · obtain ⟨done, rest, broken, e, hp⟩ := imageStates_progress hn.2 (fun l' hl' => hd l' (by simp [hl'])) h
      exact ⟨l :: done, rest, broken, by rw [e]; rfl, progress_cons ha (e ▸ hn.1) hp⟩

theorem progress_reached {m : CostMap K} (broken : Bool) : ∀ {done rest : List String} {files : Files K}, (done ++ rest).Nodup →
    (∀ l ∈ done ++ rest, (m.data l).isSome) → ∃ f ∈ m.imageStates (done ++ rest) files, Progress m files f done rest broken
  | [], [], files, _, _ => ⟨files, by simp [imageStates], rfl, by simp, by simp, fun _ _ _ => rfl⟩
  | [], l :: ls, files, _, hd => by
    obtain ⟨a, ha⟩ := Option.isSome_iff_exists.1 (hd l (by simp))
    cases broken
    · refine ⟨files, ?_, rfl, by simp, by simp, fun _ _ _ => rfl⟩
      rw [List.nil_append, imageStates, ha]; simp
    · refine ⟨setImage files (l ++ ".png") none, ?_, rfl, by simp, fun _ l' hl' => ?_, fun l' _ hh => ?_⟩
      · rw [List.nil_append, imageStates, ha]; simp
      · rw [List.head?_cons, Option.some_inj] at hl'
        rw [setImage_png, if_pos hl'.symm]
      · rw [setImage_png, if_neg (fun h => hh rfl (by rw [h]; rfl))]
  | l :: done, rest, files, hn, hd => by
    rw [List.cons_append, List.nodup_cons] at hn
    obtain ⟨a, ha⟩ := Option.isSome_iff_exists.1 (hd l (by simp))
    obtain ⟨f, h1, h2⟩ := progress_reached broken (rest := rest) hn.2
      (files := setImage files (l ++ ".png") (some (.bgra (a.mapIdx fun _ _ c => savePixel c)))) (fun l' hl' => hd l' (by
        rw [List.cons_append]; exact List.mem_cons_of_mem _ hl'))
    refine ⟨f, ?_, progress_cons ha hn.1 h2⟩
    rw [List.cons_append, imageStates, ha]
    simp [h1]

theorem loadedCost_none (cv : Cv) {size : Idx} (hs : 0 < size.x) (i : Idx) : loadedCost cv none size i = NO_INFORMATION := by
  rw [loadedCost, if_neg]
  simp only [FileImage.toImage, Image.height, Mat.empty]
  omega

theorem showsFile_of (cv : Cv) {file : Option FileImage} {m : CostMap K} (hs : 0 < m.size.x) {l : String}
    (h : ∀ i, i.In m.size → m.at l i = .ok (loadedCost cv file m.size i)) : ShowsFile cv file m l := by
  constructor
  · rintro ⟨img, rfl, hh, hw⟩ i hi
    have := h i hi
    rw [loadedCost, if_pos ⟨hh.symm, hw.symm⟩] at this
    have hsome : ((FileImage.toImage (some img)).costAt cv i).isSome := by
      obtain ⟨i1, i2, i3, i4⟩ := hi
      cases img <;>
      · simp only [FileImage.toImage, Image.costAt, Option.isSome_map, Image.height, Image.width] at hh hw ⊢
        rw [Mat.get?_isSome_iff]
        exact ⟨i1, by omega, i3, by omega⟩
    obtain ⟨c, hc⟩ := Option.isSome_iff_exists.1 hsome
    exact ⟨c, hc, by rw [this, hc]; rfl⟩
  · intro hno i hi
    rw [h i hi]
    cases file with
    | none => rw [loadedCost_none cv hs]
    | some img =>
      rw [loadedCost, if_neg]
      exact fun hh => hno ⟨img, rfl, hh.1.symm, hh.2.symm⟩

/-- C68, for every earlier content of the directory: whenever a save is interrupted, loading what is in the directory finds the
directory as it was before the save, or throws and leaves the map alone, or gives the map a complete save would have given, except
for the layers of a final part of the layer list: they show the image files that were in the directory before the save, or, the
first one of them, nothing. All these mixtures occur. The full statement has no layer that shows an earlier image, which is false
of the code: see `C68_false`. -/
theorem C68_mixtures_partial (cv : Cv) {rf txt : K → K} (hrf : Close24 rf) {m : CostMap K} (hg : m.Geo) (hc : m.Coherent)
    (ht : 0 < txt m.resolution) (hx : m.size.x < 2 ^ 23) (hy : m.size.y < 2 ^ 23) (files : Files K)
    {e : CostMap K} (he : e.Coherent) :
    ∃ files' full, m.toImageBundle txt files = .ok files' ∧ fromImageBundle cv rf files' e = (.ok (), full) ∧
      (∀ f ∈ m.saveStates txt files, f = files ∨ (∃ x, fromImageBundle cv rf f e = (.thrown x, e)) ∨
        ∃ m' done rest broken, m.layers = done ++ rest ∧ fromImageBundle cv rf f e = (.ok (), m') ∧
          Mixture cv files full m' rest broken) ∧
      ∀ done rest broken, m.layers = done ++ rest → ∃ f ∈ m.saveStates txt files, ∃ m',
        fromImageBundle cv rf f e = (.ok (), m') ∧ Mixture cv files full m' rest broken := by
  have hall : ∀ l ∈ m.layers, (m.data l).isSome := fun l hl => (hc.mem_iff l).1 hl
  obtain ⟨images, i1, i2, -⟩ := saveLayers_run hc (ls := m.layers) files.images fun l hl => (hc.mem_iff l).1 hl
  obtain ⟨ps, p1, p2, p3⟩ := readLayers_saved (acc := []) hc.nodup (by simp) List.Pairwise.nil
  rw [List.append_nil] at p2
  have hn : (ps.map Prod.fst).Nodup := (List.pairwise_map.2 p3).imp fun h => ne_of_lt h
  have hinfo : readInfo rf (m.savedYaml txt) = .ok ⟨m.frameId, ⟨txt m.position.x, txt m.position.x⟩, rf (txt m.resolution),
      m.size.x.toNat, m.size.y.toNat, ps⟩ := by
    simp only [savedYaml, readInfo, Option.getD_some, p1, Res.bind_ok]
  have load : ∀ {f : Files K}, f.yaml = m.savedYaml txt → _ := fun {f} hf =>
    fromImageBundle_any cv hrf (files := f) (hf ▸ hinfo) (hrf.pos ht) (by have := hg.size_x; simp only; omega)
      (by have := hg.size_y; simp only; omega) (by simp only; omega) (by simp only; omega) hn he
  obtain ⟨full, a1, a2, a3, a4, a5, a6, a7, a8, a9, a10, a11, a12, a13, a14⟩ := load (f := ⟨m.savedYaml txt, images⟩) rfl
  have key : ∀ {f : Files K} {done rest : List String} {broken : Bool}, m.layers = done ++ rest →
      Progress m { files with yaml := m.savedYaml txt } f done rest broken →
      ∃ m', fromImageBundle cv rf f e = (.ok (), m') ∧ Mixture cv files full m' rest broken := by
    intro f done rest broken hl hp
    obtain ⟨m', b1, b2, b3, b4, b5, b6, b7, b8, b9, b10, b11, b12, b13, b14⟩ := load (f := f) hp.yaml
    have hsz : m'.size = full.size := by rw [a9, b9]
    have hnd : (done ++ rest).Nodup := hl ▸ hc.nodup
    have dis : ∀ l ∈ rest, l ∉ done := fun l h1 h2 => List.disjoint_of_nodup_append hnd h2 h1
    have shows : ∀ l ∈ m.layers, ∀ i, i.In m'.size → m'.at l i = .ok (loadedCost cv (f.images (l ++ ".png")) m'.size i) :=
      fun l hl i hi => b14 _ (p2.mem_iff.2 (List.mem_map_of_mem hl)) i hi
    have inrest : ∀ l ∈ rest, l ∈ m.layers := fun l h => by rw [hl]; exact List.mem_append_right _ h
    refine ⟨m', b1, ⟨by rw [a10, b10], by rw [a8, b8], by rw [a7, b7], hsz, by rw [a11, b11]⟩,
      ⟨by rw [a4, b4], by rw [a5, b5], by rw [a6, b6]⟩, by rw [a12, b12], fun l hlr i => ?_, fun hb l hh i hi => ?_,
      fun l hlr hh => ?_⟩
    · by_cases hi : i.In m'.size
      · by_cases hlm : l ∈ m.layers
        · have hld : l ∈ done := by
            rw [hl, List.mem_append] at hlm
            exact hlm.resolve_right hlr
          obtain ⟨a, ha, hf⟩ := hp.new l hld
          have h2 := a14 _ (p2.mem_iff.2 (List.mem_map_of_mem hlm)) i (hsz ▸ hi)
          simp only [bundleEntry] at h2
          rw [shows l hlm i hi, h2, hf, i2 l a hlm ha, hsz]
        · have hps : l ∉ ps.map Prod.fst := by
            intro h
            obtain ⟨q, hq, rfl⟩ := List.mem_map.1 h
            obtain ⟨l', hl', rfl⟩ := List.mem_map.1 (p2.mem_iff.1 hq)
            exact hlm hl'
          by_cases hle : l ∈ e.layers
          · rw [b13 l i hle hps hi, a13 l i hle hps (hsz ▸ hi)]
          · have no : ∀ {q : CostMap K}, q.Coherent → q.layers = full.layers → q.at l i = .thrown .outOfRange := by
              intro q hq hql
              apply at_none
              by_contra h
              have := (hq.mem_iff l).2 (Option.isSome_iff_ne_none.2 h)
              rw [hql, a12] at this
              simp [hle] at this
              obtain ⟨x, hx⟩ := this
              exact hps (List.mem_map.2 ⟨_, hx, rfl⟩)
            rw [no b2 (by rw [a12, b12]), no a2 rfl]
      · rw [at_outside b2 hi, at_outside a2 (hsz ▸ hi), a12, b12]
    · rw [shows l (inrest l (List.mem_of_head? hh)) i hi, hp.torn hb l hh, loadedCost_none cv b3.size_x]
    · apply showsFile_of cv b3.size_x
      intro i hi
      rw [shows l (inrest l hlr) i hi, hp.old l (dis l hlr) hh]
  refine ⟨⟨m.savedYaml txt, images⟩, full, by simp only [toImageBundle, i1, Res.bind_ok]; rfl, a1, fun f hf => ?_,
    fun done rest broken hl => ?_⟩
  · rw [saveStates, List.mem_cons, List.mem_cons] at hf
    rcases hf with rfl | rfl | hf
    · exact .inl rfl
    · obtain ⟨x, h, -⟩ := C56_bad_file_throws cv rf { files with yaml := .unparsable } e trivial
      exact .inr (.inl ⟨x, h⟩)
    · obtain ⟨done, rest, broken, hl, hp⟩ := imageStates_progress hc.nodup hall hf
      obtain ⟨m', h1, h2⟩ := key hl hp
      exact .inr (.inr ⟨m', done, rest, broken, hl, h1, h2⟩)
  · obtain ⟨f, hf, hp⟩ := progress_reached (m := m) broken (done := done) (rest := rest)
      (files := { files with yaml := m.savedYaml txt }) (hl ▸ hc.nodup) (hl ▸ hall)
    obtain ⟨m', h1, h2⟩ := key hl hp
    exact ⟨f, by rw [saveStates, hl]; exact List.mem_cons_of_mem _ (List.mem_cons_of_mem _ hf), m', h1, h2⟩

/-- A save over an earlier save of the same map: interrupted before the image is written, the old image shows. -/
example : ∃ f ∈ (Demo.two 0).saveStates id Demo.oldFiles, ∃ m', fromImageBundle Demo.cv id f (CostMap.new []) = (.ok (), m') ∧
    m'.at "a" ⟨0, 0⟩ = .ok LETHAL_OBSTACLE := by
  obtain ⟨files', full, g1, g2, -, h⟩ := C68_mixtures_partial Demo.cv close24_id (txt := id) (Demo.two_geo 0)
    (Demo.two_coherent 0) (by decide +kernel) (by decide) (by decide) Demo.oldFiles
    (new_coherent (ls := []) (by simp))
  obtain ⟨f, hf, m', h1, h2⟩ := h [] ["a"] false rfl
  obtain ⟨m'', h1', -, -, -, -, -, -, hs, -⟩ := C70_load_any_bundle Demo.cv close24_id (files := files') (e := CostMap.new [])
    (entries := [("a", "a.png")]) (by cases g1; rfl) (by decide +kernel) (by decide) (by decide)
    (by decide) (by decide) (new_coherent (ls := []) (by simp))
  rw [g2] at h1'; cases h1'
  have hs' : m'.size = ⟨1, 2⟩ := h2.geometry.size.trans hs
  obtain ⟨c, c1, c2⟩ := (h2.old "a" (by simp) (by simp)).1
    ⟨.bgra ⟨1, 2, [savePixel 254, savePixel 254], rfl⟩, rfl, by rw [hs']; rfl, by rw [hs']; rfl⟩ ⟨0, 0⟩ (by rw [hs']; decide)
  refine ⟨f, hf, m', h1, ?_⟩
  rw [c2, ← Option.some_inj.1 (c1.symm.trans (by decide +kernel : (FileImage.toImage (Demo.oldFiles.images "a.png")).costAt
    Demo.cv ⟨0, 0⟩ = some LETHAL_OBSTACLE))]

end CostMapModel

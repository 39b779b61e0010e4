import Verif.Lemmas.Bundle
import Verif.Props.Image
import Verif.Props.Message
import Verif.Props.Occupancy

/-!
# C56, C57: image bundles
-/

set_option linter.unusedSectionVars false

namespace CostMapModel
open CostMap
variable {K : Type} [Field K] [LinearOrder K] [IsStrictOrderedRing K] [FloorRing K]

/-- Everything about saving a map and loading it into a map without layers. -/
theorem bundle_run {cv : Cv} (hcv : cv.GrayOk) {rf txt : K → K} (hrf : Close24 rf) {m : CostMap K} (hg : m.Geo) (hc : m.Coherent)
    (ht : 0 < txt m.resolution) (hx : m.size.x < 2 ^ 23) (hy : m.size.y < 2 ^ 23) (files : Files K) :
    ∃ files', m.toImageBundle txt files = .ok files' ∧ ∀ e : CostMap K, NoLayers e →
      ∃ m', fromImageBundle cv rf files' e = (.ok (), m') ∧ m'.Coherent ∧
        m'.frameId = m.frameId ∧ m'.timestamp = 0 ∧ m'.basicLayers = e.basicLayers ∧
        m'.position = ⟨txt m.position.x, txt m.position.x⟩ ∧ m'.resolution = rf (txt m.resolution) ∧
        m'.size = m.size ∧ m'.length = ⟨(m.size.x : K) * m'.resolution, (m.size.y : K) * m'.resolution⟩ ∧ m'.startIndex = 0 ∧
        m'.layers.Perm m.layers ∧ m'.layers.Pairwise (· < ·) ∧
        ∀ l i c, m.at l i = .ok c → m'.at l i = .ok (reloaded c) := by
  obtain ⟨images, i1, i2, -⟩ := saveLayers_run hc (ls := m.layers) files.images fun l hl => (hc.mem_iff l).1 hl
  obtain ⟨ps, p1, p2, p3⟩ := readLayers_saved (acc := []) hc.nodup (by simp) List.Pairwise.nil
  rw [List.append_nil] at p2
  have pn : (ps.map Prod.fst).Perm m.layers := by
    have := p2.map Prod.fst
    rw [List.map_map] at this
    simpa [bundleEntry, Function.comp_def] using this
  let files' : Files K := ⟨.parsed
    { frameId := some m.frameId
      centreX := some (txt m.position.x)
      centreY := some (txt m.position.x)
      resolution := some (txt m.resolution)
      cellsX := some m.size.x.toNat
      cellsY := some m.size.y.toNat
      layers := some (m.layers.map fun l => ⟨some l, some (l ++ ".png")⟩) }, images⟩
  refine ⟨files', by simp only [toImageBundle, i1, Res.bind_ok]; rfl, ?_⟩
  rintro e ⟨hec, hel⟩
  have hr : 0 < rf (txt m.resolution) := hrf.pos ht
  have nx : (0 : K) < m.size.x.toNat := by exact_mod_cast (by have := hg.size_x; omega : 0 < m.size.x.toNat)
  have ny : (0 : K) < m.size.y.toNat := by exact_mod_cast (by have := hg.size_y; omega : 0 < m.size.y.toNat)
  have e1 := setGeometry_run (len := ⟨rf (rf (txt m.resolution) * m.size.x.toNat), rf (rf (txt m.resolution) * m.size.y.toNat)⟩)
    (r := rf (txt m.resolution)) ⟨txt m.position.x, txt m.position.x⟩ (hrf.pos (mul_pos hr nx)) (hrf.pos (mul_pos hr ny)) hr e
  simp only [cells_round_trip hrf hr hg.size_x hx, cells_round_trip hrf hr hg.size_y hy] at e1
  have c1 := setGeometry_coherent ⟨rf (rf (txt m.resolution) * m.size.x.toNat), rf (rf (txt m.resolution) * m.size.y.toNat)⟩
    (rf (txt m.resolution)) ⟨txt m.position.x, txt m.position.x⟩ e hec
  rw [e1] at c1
  generalize hM : (⟨_, _, _, _, _, _, _, _, _, _⟩ : CostMap K) = M at e1 c1
  let M' := (M.setFrameId m.frameId).resetTimestamp
  have c2 : M'.Coherent := ⟨c1.nodup, c1.mem_iff, c1.dims⟩
  have s2 : M'.size = m.size := by change M.size = _; subst hM; rfl
  have g2 : M'.Geo := by
    refine ⟨?_, by rw [s2]; exact hg.size_x, by rw [s2]; exact hg.size_y, ?_, ?_, ?_⟩
    · change 0 < M.resolution; subst hM; exact hr
    · change M.length.x = M.size.x * M.resolution; subst hM; rfl
    · change M.length.y = M.size.y * M.resolution; subst hM; rfl
    · rw [s2]
      change M.startIndex.In m.size
      subst hM
      exact ⟨le_refl _, hg.size_x, le_refl _, hg.size_y⟩
  have l2 : M'.layers = [] := by change M.layers = []; subst hM; exact hel
  have x2 : ∀ l, M'.exists l = false := by
    intro l
    by_contra h
    have := (c2.mem_iff l).2 (by simpa [CostMap.exists, Option.isSome_iff_ne_none] using h)
    rw [l2] at this; simp at this
  have im : ∀ p ∈ ps, p.1 ∈ m.layers ∧ p.2 = p.1 ++ ".png" := by
    intro p hp
    have := p2.mem_iff.1 hp
    rw [List.mem_map] at this
    obtain ⟨l, hl, rfl⟩ := this
    exact ⟨hl, rfl⟩
  have im2 : ∀ p ∈ ps, ∃ a, m.data p.1 = some a ∧
      FileImage.toImage (files'.images p.2) = .bgra8 (a.mapIdx fun _ _ c => savePixel c) := by
    intro p hp
    obtain ⟨h1, h2⟩ := im p hp
    obtain ⟨a, ha⟩ := Option.isSome_iff_exists.1 ((hc.mem_iff _).1 h1)
    refine ⟨a, ha, ?_⟩
    change FileImage.toImage (images p.2) = _
    rw [h2, i2 _ _ h1 ha]; rfl
  obtain ⟨m', r1, r2, r3, r4, r5, -, r7⟩ := loadLayers_run cv files' g2 c2
    (pn.symm.nodup hc.nodup) (fun p _ => x2 _) (ps := ps) (by
      intro p hp
      obtain ⟨a, ha, hi⟩ := im2 p hp
      have := hc.dims _ _ ha
      rw [hi, s2]
      exact ⟨this.1.symm, this.2.symm⟩)
  have hinfo : readInfo rf files'.yaml = .ok ⟨m.frameId, ⟨txt m.position.x, txt m.position.x⟩, rf (txt m.resolution),
      m.size.x.toNat, m.size.y.toNat, ps⟩ := by
    simp only [files', readInfo, Option.getD_some, p1, Res.bind_ok]
  refine ⟨m', ?_, r2, r4.frameId, r4.timestamp, ?_, ?_, ?_, r3.size.trans s2, ?_, ?_, ?_, ?_, ?_⟩
  · unfold fromImageBundle
    rw [Act.bind_ok (show Act.lift (readInfo rf files'.yaml) e = (.ok _, e) by rw [hinfo]; rfl), Act.bind_ok e1]
    exact r1
  · rw [r4.basicLayers]; change M.basicLayers = _; subst hM; rfl
  · rw [r3.position]; change M.position = _; subst hM; rfl
  · rw [r3.resolution]; change M.resolution = _; subst hM; rfl
  · rw [r3.length, r3.resolution]; change M.length = ⟨_ * M.resolution, _ * M.resolution⟩; subst hM; rfl
  · rw [r3.startIndex]; change M.startIndex = _; subst hM; rfl
  · rw [r5, l2]; exact pn
  · rw [r5, l2, List.nil_append, List.pairwise_map]; exact p3
  · intro l i c hat
    have hd : ∃ a, m.data l = some a ∧ a.get? i.x i.y = some c := by
      unfold CostMap.at at hat
      cases ha : m.data l with
      | none => rw [ha] at hat; simp at hat
      | some a =>
        rw [ha] at hat
        cases hg : a.get? i.x i.y with
        | none => simp [hg] at hat
        | some c' => simp [hg] at hat; exact ⟨a, rfl, by rw [hg, hat]⟩
    obtain ⟨a, ha, hv⟩ := hd
    have hl : l ∈ m.layers := (hc.mem_iff l).2 (by simp [ha])
    have hin : i.In m.size := by
      have := hc.dims l a ha
      have hr := (Mat.get?_isSome_iff a i.x i.y).1 (by simp [hv])
      unfold Mat.InRange at hr
      exact ⟨hr.1, by omega, hr.2.2.1, by omega⟩
    have hp : bundleEntry l ∈ ps := p2.mem_iff.2 (List.mem_map_of_mem hl)
    obtain ⟨s, s1, s3⟩ := r7 _ hp i (by rw [s2]; exact hin)
    obtain ⟨a', ha', hi'⟩ := im2 _ hp
    have : a' = a := Option.some_inj.1 (ha'.symm.trans ha)
    subst this
    rw [hi'] at s1
    rw [show l = (bundleEntry l).1 from rfl, s3, sample_saved hcv hv s1]

/-! ## C56 -/

/-- C56, without the centre's y coordinate and for sizes below 2^23: loading what was saved into a map without layers gives
the frame, the size, the x coordinate of the centre and the set of layers back; the layers are in alphabetical order then.
Numbers are printed and read (`txt`), and the resolution is rounded to `float`. The full statement also has the y
coordinate of the centre, but x is saved in its place: see `C56_false`. -/
theorem C56_bundle_metadata_partial {cv : Cv} (hcv : cv.GrayOk) {rf txt : K → K} (hrf : Close24 rf) {m : CostMap K}
    (hg : m.Geo) (hc : m.Coherent) (ht : 0 < txt m.resolution) (hx : m.size.x < 2 ^ 23) (hy : m.size.y < 2 ^ 23)
    (files : Files K) :
    ∃ files', m.toImageBundle txt files = .ok files' ∧ ∀ e : CostMap K, NoLayers e →
      ∃ m', fromImageBundle cv rf files' e = (.ok (), m') ∧ m'.frameId = m.frameId ∧ m'.size = m.size ∧
        |m'.resolution - txt m.resolution| ≤ txt m.resolution / 2 ^ 24 ∧
        m'.length = ⟨(m.size.x : K) * m'.resolution, (m.size.y : K) * m'.resolution⟩ ∧
        m'.position.x = txt m.position.x ∧ m'.position.y = txt m.position.x ∧ m'.layers.Perm m.layers ∧
        m'.layers.Pairwise (· < ·) ∧ m'.timestamp = 0 ∧ m'.startIndex = 0 := by
  obtain ⟨files', h1, h2⟩ := bundle_run hcv hrf hg hc ht hx hy files
  refine ⟨files', h1, fun e he => ?_⟩
  obtain ⟨m', a1, -, a3, a4, -, a6, a7, a8, a9, a10, a11, a12, -⟩ := h2 e he
  refine ⟨m', a1, a3, a8, ?_, a9, by rw [a6], by rw [a6], a11, a12, a4, a10⟩
  rw [a7]; exact hrf _ ht

theorem close24_id : Close24 (id : K → K) := fun x hx => by simp; positivity

theorem close24_toFloat : Close24 toFloat := fun x hx => by
  have := toFloat_error x
  rwa [abs_of_pos hx] at this

theorem noLayers_new : NoLayers (CostMap.new [] : CostMap K) := ⟨new_coherent (by simp), rfl⟩

/-- C56 is false: even with exact numbers the centre ⟨1, -1⟩ of `Demo.base` comes back as ⟨1, 1⟩. -/
theorem C56_false : ¬ ∀ (m : CostMap ℚ) (files : Files ℚ), m.Geo → m.Coherent →
    ∃ files' m', m.toImageBundle id files = .ok files' ∧
      fromImageBundle Demo.cv id files' (CostMap.new []) = (.ok (), m') ∧ m'.position = m.position := by
  intro h
  have files : Files ℚ := ⟨.missing, fun _ => none⟩
  obtain ⟨files', m', h1, h2, h3⟩ := h Demo.base files Demo.base_geo Demo.base_coherent
  obtain ⟨files'', g1, g2⟩ := C56_bundle_metadata_partial Demo.cv_grayOk close24_id Demo.base_geo Demo.base_coherent (txt := id)
    (by decide +kernel) (by decide +kernel) (by decide +kernel) files
  rw [h1] at g1; cases g1
  obtain ⟨m'', k1, -, -, -, -, -, k6, -⟩ := g2 _ noLayers_new
  rw [h2] at k1; cases k1
  rw [h3] at k6
  revert k6
  decide +kernel

/-- Loading a file that is missing, is not YAML or lacks a required key throws, and the map is unchanged. -/
theorem C56_bad_file_throws (cv : Cv) (rf : K → K) (files : Files K) (m : CostMap K)
    (h : match files.yaml with
      | .missing => True
      | .unparsable => True
      | .parsed b => b.frameId = none ∨ b.centreX = none ∨ b.centreY = none ∨ b.resolution = none ∨ b.cellsX = none ∨
          b.cellsY = none ∨ ∃ l ∈ b.layers.getD [], l.layerName = none ∨ l.layerData = none) :
    ∃ e, fromImageBundle cv rf files m = (.thrown e, m) ∧ (e = .runtimeError ↔ files.yaml matches .missing) := by
  have rl : ∀ (ls : List BundleLayer) (acc : List (String × String)), (∃ l ∈ ls, l.layerName = none ∨ l.layerData = none) →
      readLayers ls acc = .thrown .logicError := by
    intro ls
    induction ls with
    | nil => rintro acc ⟨l, hl, -⟩; simp at hl
    | cons l ls ih =>
      rintro acc ⟨l', hl', hb⟩
      obtain ⟨n, d⟩ := l
      cases n with
      | none => rfl
      | some n =>
        cases d with
        | none => rfl
        | some d =>
          unfold readLayers
          apply ih
          rcases List.mem_cons.1 hl' with rfl | hl'
          · simp at hb
          · exact ⟨l', hl', hb⟩
  have key : ∀ e, readInfo rf files.yaml = .thrown e → fromImageBundle cv rf files m = (.thrown e, m) := by
    intro e he
    unfold fromImageBundle Act.bind Act.lift
    rw [he]
  cases hy : files.yaml with
  | missing => exact ⟨.runtimeError, key _ (by rw [hy]; rfl), by simp⟩
  | unparsable => exact ⟨.logicError, key _ (by rw [hy]; rfl), by simp⟩
  | parsed b =>
    rw [hy] at h
    refine ⟨.logicError, key _ ?_, by simp⟩
    rw [hy]
    obtain ⟨f, cx, cy, r, nx, ny, ls⟩ := b
    simp only at h
    cases f <;> cases cx <;> cases cy <;> cases r <;> cases nx <;> cases ny <;>
      first
      | rfl
      | (simp only [reduceCtorEq, false_or] at h
         simp only [readInfo, rl _ [] h, Res.bind_thrown])

/-! ## C57 -/

theorem reloaded_spec : reloaded NO_INFORMATION = NO_INFORMATION ∧ (∀ c, c ≠ NO_INFORMATION → reloaded c ≠ NO_INFORMATION) ∧
    reloaded LETHAL_OBSTACLE = LETHAL_OBSTACLE ∧ reloaded INSCRIBED_OBSTACLE = INSCRIBED_OBSTACLE ∧
    reloaded FREE_SPACE = FREE_SPACE ∧ (∀ c d, c ≤ d → reloaded c ≤ reloaded d) ∧
    ∀ c : Cost, |((reloaded c).toNat : ℤ) - c.toNat| ≤ 1 := by
  have tab : ∀ n : Nat, n < 255 → reloaded (UInt8.ofNat n) ≤ reloaded (UInt8.ofNat (n + 1)) := by decide +kernel
  refine ⟨by decide +kernel, forall_cost (by decide +kernel), by decide +kernel, by decide +kernel, by decide +kernel, ?_,
    forall_cost (by decide +kernel)⟩
  intro c d h
  have : ∀ k n : Nat, n + k < 256 → reloaded (UInt8.ofNat n) ≤ reloaded (UInt8.ofNat (n + k)) := by
    intro k
    induction k with
    | zero => intro n _; exact UInt8.le_refl _
    | succ k ih => intro n hn; exact UInt8.le_trans (ih n (by omega)) (tab (n + k) (by omega))
  rw [UInt8.le_iff_toNat_le] at h
  have h2 := this (d.toNat - c.toNat) c.toNat (by have := d.toNat_lt; omega)
  rw [show c.toNat + (d.toNat - c.toNat) = d.toNat by omega, UInt8.ofNat_toNat, UInt8.ofNat_toNat] at h2
  exact h2

/-- C57, cell by cell in terms of indices. -/
theorem C57_costs_by_index {cv : Cv} (hcv : cv.GrayOk) : ∃ f : Cost → Cost,
    f NO_INFORMATION = NO_INFORMATION ∧ (∀ c, c ≠ NO_INFORMATION → f c ≠ NO_INFORMATION) ∧
    f LETHAL_OBSTACLE = LETHAL_OBSTACLE ∧ f INSCRIBED_OBSTACLE = INSCRIBED_OBSTACLE ∧ f FREE_SPACE = FREE_SPACE ∧
    (∀ c d, c ≤ d → f c ≤ f d) ∧ (∀ c : Cost, |((f c).toNat : ℤ) - c.toNat| ≤ 1) ∧
    ∀ {rf txt : K → K}, Close24 rf → ∀ {m : CostMap K}, m.Geo → m.Coherent → 0 < txt m.resolution → m.size.x < 2 ^ 23 →
      m.size.y < 2 ^ 23 → ∀ files : Files K, ∃ files', m.toImageBundle txt files = .ok files' ∧
        ∀ e : CostMap K, NoLayers e → ∃ m', fromImageBundle cv rf files' e = (.ok (), m') ∧
          ∀ l i c, m.at l i = .ok c → m'.at l i = .ok (f c) := by
  obtain ⟨v1, v2, v3, v4, v5, v6, v7⟩ := reloaded_spec
  refine ⟨reloaded, v1, v2, v3, v4, v5, v6, v7, fun hrf m hg hc ht hx hy files => ?_⟩
  obtain ⟨files', h1, h2⟩ := bundle_run hcv hrf hg hc ht hx hy files
  refine ⟨files', h1, fun e he => ?_⟩
  obtain ⟨m', a1, -, -, -, -, -, -, -, -, -, -, -, a⟩ := h2 e he
  exact ⟨m', a1, a⟩

/-- C57 in terms of positions, for maps that were not moved, with a centre that survives (x = y) and numbers that survive
printing and `float`. The full statement is about every map; see `C57_false`. -/
theorem C57_costs_by_position_partial {cv : Cv} (hcv : cv.GrayOk) : ∃ f : Cost → Cost,
    f NO_INFORMATION = NO_INFORMATION ∧ (∀ c, c ≠ NO_INFORMATION → f c ≠ NO_INFORMATION) ∧
    f LETHAL_OBSTACLE = LETHAL_OBSTACLE ∧ (∀ c d, c ≤ d → f c ≤ f d) ∧ (∀ c : Cost, |((f c).toNat : ℤ) - c.toNat| ≤ 1) ∧
    ∀ {rf txt : K → K}, Close24 rf → ∀ {m : CostMap K}, m.Geo → m.Coherent → m.size.x < 2 ^ 23 →
      m.size.y < 2 ^ 23 → m.startIndex = 0 → m.position.y = m.position.x → rf (txt m.resolution) = m.resolution →
      txt m.resolution = m.resolution → txt m.position.x = m.position.x →
      ∀ files : Files K, ∃ files', m.toImageBundle txt files = .ok files' ∧
        ∀ e : CostMap K, NoLayers e → ∃ m', fromImageBundle cv rf files' e = (.ok (), m') ∧ SameGeometry m m' ∧
          ∀ l p c, m.atPosition l p = .ok c → m'.atPosition l p = .ok (f c) := by
  obtain ⟨v1, v2, v3, v4, v5, v6, v7⟩ := reloaded_spec
  refine ⟨reloaded, v1, v2, v3, v6, v7, fun {_ txt} hrf m hg hc hx hy hs hp hr1 hr2 hp2 files => ?_⟩
  obtain ⟨files', h1, h2⟩ := bundle_run (txt := txt) hcv hrf hg hc (hr2.symm ▸ hg.res_pos) hx hy files
  refine ⟨files', h1, fun e he => ?_⟩
  obtain ⟨m', a1, -, -, -, -, a6, a7, a8, a9, a10, -, -, a⟩ := h2 e he
  have sg : SameGeometry m m' := by
    refine ⟨?_, by rw [a7, hr1], ?_, a8, by rw [a10, hs]⟩
    · rw [a9, a7, hr1]; exact Vec.ext hg.len_x.symm hg.len_y.symm
    · rw [a6]; exact Vec.ext hp2 (by rw [hp]; exact hp2)
  refine ⟨m', a1, sg, fun l p c h => ?_⟩
  have hidx : m'.getIndex p = m.getIndex p := by
    unfold CostMap.getIndex
    rw [sg.length, sg.position, sg.resolution, sg.size, sg.startIndex]
  unfold CostMap.atPosition at h ⊢
  rw [hidx]
  cases hb : (m.getIndex p).2 with
  | false => simp [hb] at h
  | true =>
    simp only [hb, if_true] at h ⊢
    exact a _ _ _ h

/-- `Demo.rotated` with the centre ⟨1, 1⟩. -/
def Demo.rotated11 : CostMap ℚ := { Demo.rotated with position := ⟨1, 1⟩ }

theorem Demo.rotated11_geo : Demo.rotated11.Geo :=
  ⟨Demo.rotated_geo.res_pos, Demo.rotated_geo.size_x, Demo.rotated_geo.size_y, Demo.rotated_geo.len_x,
    Demo.rotated_geo.len_y, Demo.rotated_geo.start⟩

theorem Demo.rotated11_coherent : Demo.rotated11.Coherent :=
  ⟨Demo.rotated_coherent.nodup, Demo.rotated_coherent.mem_iff, Demo.rotated_coherent.dims⟩

/-- C57 is false for positions on moved maps: the only known cell of layer `b` is unknown after loading, although the
centre, the resolution and the size are those of the saved map. -/
theorem C57_false : ¬ ∀ (m : CostMap ℚ) (files : Files ℚ), m.Geo → m.Coherent → m.position.y = m.position.x →
    ∃ files' m', m.toImageBundle id files = .ok files' ∧
      fromImageBundle Demo.cv id files' (CostMap.new []) = (.ok (), m') ∧
      ∀ l p c, m.atPosition l p = .ok c → c ≠ NO_INFORMATION → m'.atPosition l p ≠ .ok NO_INFORMATION := by
  intro h
  have files : Files ℚ := ⟨.missing, fun _ => none⟩
  obtain ⟨files', m', h1, h2, h3⟩ := h Demo.rotated11 files Demo.rotated11_geo Demo.rotated11_coherent rfl
  obtain ⟨files'', g1, g2⟩ := bundle_run Demo.cv_grayOk close24_id Demo.rotated11_geo Demo.rotated11_coherent (txt := id)
    (by decide +kernel) (by decide +kernel) (by decide +kernel) files
  rw [h1] at g1; cases g1
  obtain ⟨m'', k1, -, -, -, -, k6, k7, k8, k9, k10, -, -, k⟩ := g2 _ noLayers_new
  rw [h2] at k1; cases k1
  rw [k7] at k9
  refine h3 "b" ⟨0, 1 / 4⟩ 7 (by decide +kernel) (by decide) ?_
  have hidx : m'.getIndex ⟨0, 1 / 4⟩ = (⟨4, 3⟩, true) := by
    unfold CostMap.getIndex
    rw [k6, k7, k8, k9, k10]
    decide +kernel
  unfold CostMap.atPosition
  rw [hidx]
  exact k "b" ⟨4, 3⟩ NO_INFORMATION (by decide +kernel)

/-- A map that survives: the centre of `Demo.base` set to ⟨1, 1⟩. -/
def Demo.base11 : CostMap ℚ := { Demo.base with position := ⟨1, 1⟩ }

example : ∃ files' m', Demo.base11.toImageBundle id ⟨.missing, fun _ => none⟩ = .ok files' ∧
    fromImageBundle Demo.cv toFloat files' (CostMap.new []) = (.ok (), m') ∧ SameGeometry Demo.base11 m' := by
  obtain ⟨f, -, -, -, -, -, h⟩ := C57_costs_by_position_partial (K := ℚ) Demo.cv_grayOk
  obtain ⟨files', h1, h2⟩ := h (txt := id) close24_toFloat (m := Demo.base11)
    ⟨Demo.base_geo.res_pos, Demo.base_geo.size_x, Demo.base_geo.size_y, Demo.base_geo.len_x, Demo.base_geo.len_y,
      Demo.base_geo.start⟩ ⟨Demo.base_coherent.nodup, Demo.base_coherent.mem_iff, Demo.base_coherent.dims⟩ (by decide +kernel)
    (by decide +kernel) (by decide +kernel) rfl (by decide +kernel) rfl rfl ⟨.missing, fun _ => none⟩
  obtain ⟨m', h3, h4, -⟩ := h2 _ noLayers_new
  exact ⟨files', m', h1, h3, h4⟩
/-- The map of resolution 0.05 m, as usual in practice, saved and loaded with `float` rounding. -/
example (cv : Cv) (hcv : cv.GrayOk) {m : CostMap ℚ} (hg : m.Geo) (hc : m.Coherent) (_ : m.resolution = 1 / 20)
    (hx : m.size.x < 2 ^ 23) (hy : m.size.y < 2 ^ 23) (files : Files ℚ) :
    ∃ files' m', m.toImageBundle id files = .ok files' ∧
      fromImageBundle cv toFloat files' (CostMap.new []) = (.ok (), m') ∧ m'.size = m.size := by
  obtain ⟨files', h1, h2⟩ := C56_bundle_metadata_partial hcv close24_toFloat hg hc (txt := id) hg.res_pos hx hy files
  obtain ⟨m', h3, -, h4, -⟩ := h2 _ noLayers_new
  exact ⟨files', m', h1, h3, h4⟩
example (m : CostMap ℚ) : ∃ e, fromImageBundle Demo.cv id ⟨.parsed ⟨some "map", some 0, some 0, none, some 3, some 4, none⟩,
    fun _ => none⟩ m = (.thrown e, m) := by
  obtain ⟨e, h, -⟩ := C56_bad_file_throws Demo.cv id (⟨.parsed ⟨some "map", some 0, some 0, none, some 3, some 4, none⟩,
    fun _ => none⟩ : Files ℚ) m (by simp)
  exact ⟨e, h⟩

end CostMapModel

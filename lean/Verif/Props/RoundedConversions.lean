import Verif.Lemmas.RoundedConversions
import Verif.Spec.RoundedConversions
import Verif.Props.Message
import Verif.Props.Bundle
import Verif.Props.Load
import Verif.Props.GridMap
import Verif.Props.Occupancy
import Verif.Props.RoundedMove
import Verif.Props.RoundedMerge

/-!
# C95: conversions in floating point
-/

set_option linter.unusedSectionVars false

namespace CostMapModel
open CostMap

section
variable {K : Type} [Field K] [LinearOrder K] [IsStrictOrderedRing K] [FloorRing K]

/-! ## Messages -/

theorem get_withLength (L : Vec K) (m : CostMap K) (l : String) : (withLength L m).get l = m.get l := rfl

theorem layerArrays_withLength (L : Vec K) (m : CostMap K) : ∀ ls, (withLength L m).layerArrays ls = m.layerArrays ls
  | [] => rfl
  | l :: ls => by simp only [layerArrays, get_withLength, layerArrays_withLength L m ls]

theorem geo_withLength {rd : K → K} {m : CostMap K} (h : m.GeoRd rd) :
    (withLength ⟨m.size.x * m.resolution, m.size.y * m.resolution⟩ m).Geo :=
  ⟨h.res_pos, h.size_x, h.size_y, rfl, rfl, h.start⟩

theorem coherent_withLength (L : Vec K) {m : CostMap K} (h : m.Coherent) : (withLength L m).Coherent := ⟨h.nodup, h.mem_iff, h.dims⟩

/-- Reading a message in floating point and in exact arithmetic. -/
theorem fromMessageRd_eq {rd : K → K} {msg : CostMapMsg K} {n : Idx} {len' : Vec K} (hx : 0 < msg.lengthX) (hy : 0 < msg.lengthY)
    (hr : 0 < msg.resolution) (nx : roundHalfAway (rd (msg.lengthX / msg.resolution)) = n.x)
    (ny : roundHalfAway (rd (msg.lengthY / msg.resolution)) = n.y) (hx' : 0 < len'.x) (hy' : 0 < len'.y)
    (nx' : roundHalfAway (len'.x / msg.resolution) = n.x) (ny' : roundHalfAway (len'.y / msg.resolution) = n.y) (e : CostMap K) :
    fromMessageRd rd msg e = ((fromMessage { msg with lengthX := len'.x, lengthY := len'.y } e).1,
      withLength ⟨rd ((n.x : K) * msg.resolution), rd ((n.y : K) * msg.resolution)⟩
        (fromMessage { msg with lengthX := len'.x, lengthY := len'.y } e).2) := by
  set L : Vec K := ⟨rd ((n.x : K) * msg.resolution), rd ((n.y : K) * msg.resolution)⟩ with hL
  let rest : Act (CostMap K) Bool := if msg.layers.length ≠ msg.data.length then Act.pure false else
    Act.bind (Act.forEach addFromArray (msg.layers.zip msg.data)) fun _ =>
    Act.bind (Act.modify fun m => (m.setBasicLayers msg.basicLayers).setStartIndex
      ⟨msg.outerStartIndex.toNat, msg.innerStartIndex.toNat⟩) fun _ => Act.pure true
  have hrest : Act.Natural (withLength L) rest := by
    refine Act.Natural.ite (Act.Natural.pure _) (Act.Natural.bind (Act.Natural.forEach (natural_addFromArray L) _) fun _ => ?_)
    exact Act.Natural.bind (Act.Natural.modify fun _ => rfl) fun _ => Act.Natural.pure _
  let e1 := (e.setTimestamp (stampToNSec msg.stampSec msg.stampNsec)).setFrameId msg.frameId
  show Act.bind (setGeometryRd rd ⟨msg.lengthX, msg.lengthY⟩ msg.resolution msg.position) (fun _ => rest) e1 =
    ((Act.bind (setGeometry ⟨len'.x, len'.y⟩ msg.resolution msg.position) (fun _ => rest) e1).1,
      withLength L (Act.bind (setGeometry ⟨len'.x, len'.y⟩ msg.resolution msg.position) (fun _ => rest) e1).2)
  have s1 := setGeometryRd_eq (rd := rd) (len := ⟨msg.lengthX, msg.lengthY⟩) (len' := len') msg.position hx hy hr nx ny hx' hy' nx'
    ny' e1
  have s2 := setGeometry_run msg.position hx' hy' hr e1
  rw [s2] at s1
  rw [Act.bind_ok s1, Act.bind_ok s2]
  exact hrest _

/-- C95. A map whose geometry was computed in floating point is sent as a message and read, in floating point: what comes back is
the map that was sent, in every respect, bit for bit. (The bounds are those of C48, for the reasons given there.) -/
theorem C95_message_round_trip_partial {rd : K → K} (hrd : DoublePrecision rd) {m : CostMap K} (hg : m.GeoRd rd) (hc : m.Coherent)
    (ht : m.timestamp < 2 ^ 32 * 10 ^ 9) (hx : m.size.x < 2 ^ 31) (hy : m.size.y < 2 ^ 31)
    (sx : m.startIndex.x < 2 ^ 16) (sy : m.startIndex.y < 2 ^ 16) :
    ∃ msg, m.toMessage = .ok msg ∧ ∀ e : CostMap K, NoLayers e → fromMessageRd rd msg e = (.ok true, m) := by
  set L0 : Vec K := ⟨m.size.x * m.resolution, m.size.y * m.resolution⟩ with hL0
  obtain ⟨msg0, a1, a2⟩ := C48_message_round_trip_partial (geo_withLength hg) (coherent_withLength _ hc) ht hx hy sx sy
  have key : ∃ msg, m.toMessage = .ok msg ∧ msg0 = { msg with lengthX := L0.x, lengthY := L0.y } ∧ msg.lengthX = m.length.x ∧
      msg.lengthY = m.length.y ∧ msg.resolution = m.resolution := by
    simp only [toMessage, layerArrays_withLength] at a1 ⊢
    change (stampOf m.timestamp).bind (fun t => (m.layerArrays m.layers).bind _) = _ at a1
    cases h1 : stampOf m.timestamp with
    | ok t =>
      rw [h1, Res.bind_ok] at a1
      cases h2 : m.layerArrays m.layers with
      | ok as =>
        rw [h2, Res.bind_ok] at a1
        cases a1
        exact ⟨_, rfl, rfl, rfl, rfl, rfl⟩
      | _ => rw [h2] at a1; cases a1
    | _ => rw [h1] at a1; cases a1
  obtain ⟨msg, b1, b2, b3, b4, b5⟩ := key
  refine ⟨msg, b1, fun e he => ?_⟩
  obtain ⟨cx, dx⟩ := cells_of_length hrd hg.res_pos hg.size_x (by omega)
  obtain ⟨cy, dy⟩ := cells_of_length hrd hg.res_pos hg.size_y (by omega)
  have px : (0 : K) < m.size.x := by exact_mod_cast hg.size_x
  have py : (0 : K) < m.size.y := by exact_mod_cast hg.size_y
  rw [← hg.len_x] at cx dx
  rw [← hg.len_y] at cy dy
  have q : ∀ k : Int, 0 ≤ k → roundHalfAway ((k : K) * m.resolution / m.resolution) = k := fun k hk => by
    rw [mul_div_cancel_right₀ _ hg.res_pos.ne']; exact roundHalfAway_intCast _ hk
  rw [fromMessageRd_eq (n := m.size) (len' := L0) (by rw [b3]; exact cx) (by rw [b4]; exact cy) (by rw [b5]; exact hg.res_pos)
    (by rw [b3, b5]; exact dx) (by rw [b4, b5]; exact dy) (mul_pos px hg.res_pos) (mul_pos py hg.res_pos)
    (by rw [b5]; exact q _ hg.size_x.le) (by rw [b5]; exact q _ hg.size_y.le), ← b2, a2 e he, b5, ← hg.len_x, ← hg.len_y]
  rfl

/-! ## Image bundles -/

/-- Loading a bundle in floating point and in exact arithmetic. -/
theorem fromImageBundleRd_eq {rd rf : K → K} (hrd : DoublePrecision rd) (hrf : Close24 rf) (hi : ∀ n : Nat, n < 2 ^ 23 → rf n = n)
    (cv : Cv) {files : Files K} {b : BundleInfo K} (hb : readInfo rf files.yaml = .ok b) (hr : 0 < b.resolution)
    (hx : 0 < b.cellsX) (hy : 0 < b.cellsY) (hx' : b.cellsX < 2 ^ 23) (hy' : b.cellsY < 2 ^ 23) (e : CostMap K) :
    fromImageBundleRd rd rf cv files e = ((fromImageBundle cv rf files e).1,
      withLength ⟨rd ((b.cellsX : K) * b.resolution), rd ((b.cellsY : K) * b.resolution)⟩ (fromImageBundle cv rf files e).2) := by
  obtain ⟨c1, d1⟩ := cells_of_float hrd hrf hr (n := b.cellsX) (by omega) (by omega)
  obtain ⟨c2, d2⟩ := cells_of_float hrd hrf hr (n := b.cellsY) (by omega) (by omega)
  have rx := cells_round_trip hrf hr (n := b.cellsX) (by omega) (by omega)
  have ry := cells_round_trip hrf hr (n := b.cellsY) (by omega) (by omega)
  rw [Int.toNat_natCast] at rx ry
  rw [Int.cast_natCast] at c1 d1 c2 d2
  unfold fromImageBundleRd fromImageBundle
  rw [hb, Act.bind_ok (show Act.lift (Res.ok b) e = (.ok b, e) from rfl), Act.bind_ok (show Act.lift (Res.ok b) e = (.ok b, e) from rfl),
    hi _ hx', hi _ hy']
  have s1 := setGeometryRd_eq (rd := rd) (len := ⟨rf (b.resolution * b.cellsX), rf (b.resolution * b.cellsY)⟩)
    (len' := ⟨rf (b.resolution * b.cellsX), rf (b.resolution * b.cellsY)⟩) (n := ⟨b.cellsX, b.cellsY⟩) b.centre c1 c2 hr d1 d2 c1 c2 rx ry e
  have s2 := setGeometry_run (len := ⟨rf (b.resolution * b.cellsX), rf (b.resolution * b.cellsY)⟩) b.centre c1 c2 hr e
  rw [s2] at s1
  rw [Act.bind_ok s1, Act.bind_ok s2]
  simp only [Int.cast_natCast]
  have nat : Act.Natural (withLength ⟨rd ((b.cellsX : K) * b.resolution), rd ((b.cellsY : K) * b.resolution)⟩)
      (Act.bind (Act.modify fun m => (m.setFrameId b.frameId).resetTimestamp) fun _ => Act.forEach (loadLayer cv files) b.layers) :=
    Act.Natural.bind (Act.Natural.modify fun _ => rfl) fun _ => Act.Natural.forEach (natural_loadLayer _ cv files) _
  exact nat _

/-- C95. Loading any bundle with usable metadata, of fewer than 2^23 cells a side, in floating point: frame, centre, resolution
(as a `float`) and size are those of the bundle and the geometry is one `setGeometry` leaves behind; each layer the bundle lists
holds what its pixels stand for, or is unknown when its image is missing, unreadable or of another size. The full statement has no
bound on the size: see `C95_bundle_false`. -/
theorem C95_load_bundle_partial {rd rf : K → K} (hrd : DoublePrecision rd) (hrf : Close24 rf)
    (hi : ∀ n : Nat, n < 2 ^ 23 → rf n = n) (cv : Cv) {files : Files K} {frame : String} {cx cy r : K}
    {nx ny : Nat} {entries : List (String × String)}
    (hyaml : files.yaml = .parsed ⟨some frame, some cx, some cy, some r, some nx, some ny,
      some (entries.map fun p => ⟨some p.1, some p.2⟩)⟩)
    (hr : 0 < r) (hx : 0 < nx) (hy : 0 < ny) (hx' : nx < 2 ^ 23) (hy' : ny < 2 ^ 23) {e : CostMap K} (he : e.Coherent) :
    ∃ m', fromImageBundleRd rd rf cv files e = (.ok (), m') ∧ m'.Coherent ∧ m'.GeoRd rd ∧ m'.frameId = frame ∧ m'.timestamp = 0 ∧
      m'.position = ⟨cx, cy⟩ ∧ m'.resolution = rf r ∧ m'.size = ⟨nx, ny⟩ ∧ m'.startIndex = 0 ∧
      m'.basicLayers = e.basicLayers ∧ (∀ l, l ∈ m'.layers ↔ l ∈ e.layers ∨ l ∈ entries.map Prod.fst) ∧
      (∀ l, l ∈ e.layers → l ∉ entries.map Prod.fst → ∀ i, i.In m'.size → m'.at l i = .ok NO_INFORMATION) ∧
      ∀ l f, entries.lookup l = some f →
        (∀ img, files.images f = some img → (FileImage.toImage (some img)).height = nx →
          (FileImage.toImage (some img)).width = ny → ∀ i, i.In m'.size →
            ∃ c, (FileImage.toImage (some img)).costAt cv i = some c ∧ m'.at l i = .ok c) ∧
        ((∀ img, files.images f = some img → ¬ ((FileImage.toImage (some img)).height = nx ∧
          (FileImage.toImage (some img)).width = ny)) → ∀ i, i.In m'.size → m'.at l i = .ok NO_INFORMATION) := by
  obtain ⟨ps, p1, -, -⟩ := readLayers_any entries (acc := []) List.Pairwise.nil
  have hb : readInfo rf files.yaml = .ok ⟨frame, ⟨cx, cy⟩, rf r, nx, ny, ps⟩ := by
    simp only [hyaml, readInfo, Option.getD_some, p1, Res.bind_ok]
  obtain ⟨m', h1, h2, h3, h4, h5, h6, h7, h8, h9⟩ := C70_load_any_bundle cv hrf hyaml hr hx hy hx' hy' he
  have key := fromImageBundleRd_eq hrd hrf hi cv hb (hrf.pos hr) hx hy hx' hy' e
  rw [h1] at key
  refine ⟨_, key, coherent_withLength _ h2, ⟨h3.res_pos, h3.size_x, h3.size_y, ?_, ?_, h3.start⟩, h4, h5, h6, h7, h8, h9⟩
  · show rd ((nx : K) * rf r) = rd (((m'.size.x : Int) : K) * m'.resolution)
    rw [h7, h8, Int.cast_natCast]
  · show rd ((ny : K) * rf r) = rd (((m'.size.y : Int) : K) * m'.resolution)
    rw [h7, h8, Int.cast_natCast]

/-- Saving and loading in floating point, with the costs that come back. -/
theorem bundleRd_run {rd rf txt : K → K} (hrd : DoublePrecision rd) (hrf : Close24 rf)
    (hi : ∀ n : Nat, n < 2 ^ 23 → rf n = n) {cv : Cv} (hcv : cv.GrayOk) (m : CostMap K) (hg : m.GeoRd rd) (hc : m.Coherent)
    (ht : 0 < txt m.resolution) (hx : m.size.x < 2 ^ 23) (hy : m.size.y < 2 ^ 23) (files : Files K) :
    ∃ files', m.toImageBundle txt files = .ok files' ∧
      ∀ e : CostMap K, NoLayers e → ∃ m', fromImageBundleRd rd rf cv files' e = (.ok (), m') ∧ m'.Coherent ∧ m'.GeoRd rd ∧
        m'.startIndex = 0 ∧ m'.timestamp = 0 ∧ m'.frameId = m.frameId ∧ m'.size = m.size ∧ m'.resolution = rf (txt m.resolution) ∧
        m'.position = ⟨txt m.position.x, txt m.position.x⟩ ∧ m'.layers.Perm m.layers ∧
        ∀ l i c, m.at l i = .ok c → m'.at l i = .ok (reloaded c) := by
  obtain ⟨files', h1, h2⟩ := bundle_run (txt := txt) hcv hrf (geo_withLength hg)
    (coherent_withLength _ hc) ht hx hy files
  have hsave : m.toImageBundle txt files = .ok files' := by
    rw [← h1]
    have : ∀ ls im, (withLength ⟨(m.size.x : K) * m.resolution, (m.size.y : K) * m.resolution⟩ m).saveLayers ls im = m.saveLayers ls im := by
      intro ls
      induction ls with
      | nil => intro im; rfl
      | cons l ls ih => intro im; simp only [saveLayers, ih]; rfl
    unfold toImageBundle
    rw [this]
    rfl
  refine ⟨files', hsave, fun e he => ?_⟩
  obtain ⟨m', a1, a2, a3, a4, a5, a6, a7, a8, a9, a10, a11, a12, a13⟩ := h2 e he
  have hyaml : ∃ b, readInfo rf files'.yaml = .ok b ∧ b.resolution = rf (txt m.resolution) ∧ (b.cellsX : Int) = m.size.x ∧
      (b.cellsY : Int) = m.size.y := by
    unfold toImageBundle at hsave
    cases hs : m.saveLayers m.layers files.images with
    | ok images =>
      rw [hs, Res.bind_ok] at hsave
      cases hsave
      obtain ⟨ps, p1, -, -⟩ := readLayers_any (m.layers.map fun l => (l, l ++ ".png")) (acc := []) List.Pairwise.nil
      rw [List.map_map] at p1
      refine ⟨⟨m.frameId, ⟨txt m.position.x, txt m.position.x⟩, rf (txt m.resolution), m.size.x.toNat, m.size.y.toNat, ps⟩, ?_, rfl,
        Int.toNat_of_nonneg hg.size_x.le, Int.toNat_of_nonneg hg.size_y.le⟩
      simp only [readInfo, Option.getD_some]
      erw [p1]
      rfl
    | _ => rw [hs] at hsave; cases hsave
  obtain ⟨b, hb, hbr, hbx, hby⟩ := hyaml
  have hx0 := hg.size_x
  have hy0 := hg.size_y
  have key := fromImageBundleRd_eq hrd hrf hi cv hb (by rw [hbr]; exact hrf.pos ht) (by omega) (by omega) (by omega) (by omega) e
  rw [a1] at key
  have ex : (b.cellsX : K) = (m.size.x : K) := by exact_mod_cast congrArg (Int.cast (R := K)) hbx
  have ey : (b.cellsY : K) = (m.size.y : K) := by exact_mod_cast congrArg (Int.cast (R := K)) hby
  have hs' : m'.size = m.size := a8
  refine ⟨_, key, coherent_withLength _ a2, ⟨?_, ?_, ?_, ?_, ?_, ?_⟩, a10, a4, a3, a8, a7, a6, a11, a13⟩
  · show 0 < m'.resolution
    rw [a7]; exact hrf.pos ht
  · show 0 < m'.size.x
    rw [hs']; exact hx0
  · show 0 < m'.size.y
    rw [hs']; exact hy0
  · show rd ((b.cellsX : K) * b.resolution) = rd ((m'.size.x : K) * m'.resolution)
    rw [a7, hs', ex, hbr]; rfl
  · show rd ((b.cellsY : K) * b.resolution) = rd ((m'.size.y : K) * m'.resolution)
    rw [a7, hs', ey, hbr]; rfl
  · show m'.startIndex.In m'.size
    rw [a10, hs']; exact ⟨le_refl _, hx0, le_refl _, hy0⟩

/-- C95. Saving a map whose geometry was computed in floating point and loading it in floating point. -/
theorem C95_bundle_round_trip_partial {rd rf txt : K → K} (hrd : DoublePrecision rd) (hrf : Close24 rf)
    (hi : ∀ n : Nat, n < 2 ^ 23 → rf n = n) {cv : Cv} (hcv : cv.GrayOk) : ∃ f : Cost → Cost,
    f NO_INFORMATION = NO_INFORMATION ∧ (∀ c, c ≠ NO_INFORMATION → f c ≠ NO_INFORMATION) ∧
    f LETHAL_OBSTACLE = LETHAL_OBSTACLE ∧ f INSCRIBED_OBSTACLE = INSCRIBED_OBSTACLE ∧ f FREE_SPACE = FREE_SPACE ∧
    (∀ c d, c ≤ d → f c ≤ f d) ∧ (∀ c : Cost, |((f c).toNat : ℤ) - c.toNat| ≤ 1) ∧
    ∀ m : CostMap K, m.GeoRd rd → m.Coherent → 0 < txt m.resolution → m.size.x < 2 ^ 23 → m.size.y < 2 ^ 23 →
      ∀ files : Files K, ∃ files', m.toImageBundle txt files = .ok files' ∧
        ∀ e : CostMap K, NoLayers e → ∃ m', fromImageBundleRd rd rf cv files' e = (.ok (), m') ∧ m'.Coherent ∧ m'.GeoRd rd ∧
          m'.startIndex = 0 ∧ m'.timestamp = 0 ∧ m'.frameId = m.frameId ∧ m'.size = m.size ∧ m'.resolution = rf (txt m.resolution) ∧
          m'.position = ⟨txt m.position.x, txt m.position.x⟩ ∧ m'.layers.Perm m.layers ∧
          ∀ l i c, m.at l i = .ok c → m'.at l i = .ok (f c) := by
  obtain ⟨v1, v2, v3, v4, v5, v6, v7⟩ := reloaded_spec
  exact ⟨reloaded, v1, v2, v3, v4, v5, v6, v7, fun m hg hc ht hx hy files => bundleRd_run hrd hrf hi hcv m hg hc ht hx hy files⟩

/-! ## Grid maps -/

/-- C95, for maps whose buffer starts at index zero: a grid map made in floating point has the geometry of the map, bit for bit, and
a reader that looks a position up in floating point finds the value of the cost the map itself returns there. (Moved maps: C53.) -/
theorem C95_to_grid_map_partial : ∃ f : Cost → ℚ, (∀ c, |f c - 100 * (c.toNat : ℚ) / 255| ≤ 1 / 200000) ∧ f 0 = 0 ∧
    f 255 = 100 ∧ (∀ c c', c < c' → f c < f c') ∧
    ∀ {rd : K → K}, DoublePrecision rd → ∀ (m : CostMap K), m.GeoRd rd → m.Coherent → m.startIndex = 0 → m.size.x < 2 ^ 31 →
      m.size.y < 2 ^ 31 → ∀ g : GridMap K, g.Empty →
      ∃ g', toGridMapRd rd m g = (.ok (), g') ∧ g'.frameId = m.frameId ∧ g'.timestamp = m.timestamp ∧ g'.length = m.length ∧
        g'.resolution = m.resolution ∧ g'.position = m.position ∧ g'.size = m.size ∧ g'.startIndex = 0 ∧ g'.layers = m.layers ∧
        ∀ l p c, m.atPositionRd rd l p = .ok c → g'.atPositionRd rd l p = .ok (some (f c)) := by
  obtain ⟨v1, v2, v3, v4⟩ := gridValue_spec
  refine ⟨gridValue, v1, v2, v3, v4, fun {rd} hrd m hg hc hs hx hy g he => ?_⟩
  obtain ⟨cx, dx⟩ := cells_of_length hrd hg.res_pos hg.size_x (by omega)
  obtain ⟨cy, dy⟩ := cells_of_length hrd hg.res_pos hg.size_y (by omega)
  rw [← hg.len_x] at cx dx
  rw [← hg.len_y] at cy dy
  have e1 : GridMap.setGeometryRd rd m.length m.resolution m.position g =
      (.ok (), { g with size := m.size, data := fun _ => none, resolution := m.resolution, length := m.length,
                        position := m.position, startIndex := 0 }) := by
    unfold GridMap.setGeometryRd
    rw [if_neg (not_not.2 cx), if_neg (not_not.2 cy), if_neg (not_not.2 hg.res_pos)]
    simp only [dx, dy, he.2, ← hg.len_x, ← hg.len_y]
    rfl
  obtain ⟨g', g1, g2, g3, g4, g5, g6, g7, g8, g9, g10⟩ := gridLayers_run hc (ls := m.layers)
    (g := { g with size := m.size, data := fun _ => none, resolution := m.resolution, length := m.length,
                   position := m.position, startIndex := 0, frameId := m.frameId, timestamp := m.timestamp })
    rfl hc.nodup (fun l hl => ⟨hl, rfl⟩)
  refine ⟨g', ?_, g4, g5, g6, g7, g8, g9, g10, by rw [g2, he.1]; rfl, fun l p c h => ?_⟩
  · unfold toGridMapRd
    rw [Act.bind_ok e1, ← g1]
    rfl
  have hidx : indexFromPositionRd rd p g'.length g'.position g'.resolution g'.size g'.startIndex = m.getIndexRd rd p := by
    rw [g6, g8, g7, g9, g10]
    show indexFromPositionRd rd p m.length m.position m.resolution m.size 0 = indexFromPositionRd rd p m.length m.position m.resolution m.size m.startIndex
    rw [hs]
  unfold CostMap.atPositionRd at h
  cases hb : (m.getIndexRd rd p).2 with
  | false =>
    exfalso
    simp only [hb] at h
    simp at h
  | true =>
    simp only [hb, if_true, CostMap.at] at h
    cases hd : m.data l with
    | none => rw [hd] at h; cases h
    | some a =>
      simp only [hd] at h
      have hl : l ∈ m.layers := (hc.mem_iff l).2 (by simp [hd])
      have hget : a.get? (m.getIndexRd rd p).1.x (m.getIndexRd rd p).1.y = some c := by
        cases hx : a.get? (m.getIndexRd rd p).1.x (m.getIndexRd rd p).1.y with
        | none => rw [hx] at h; cases h
        | some c' => rw [hx] at h; cases h; rfl
      unfold GridMap.atPositionRd
      rw [hidx, g3 l, if_pos hl, hd]
      simp only [Option.map_some, hb, if_true]
      rw [gridMat_get? a hget]
      rfl

/-! ## Occupancy grids -/

/-- Making an occupancy grid in floating point and in exact arithmetic. -/
theorem toOccupancyGridRd_eq (rd rf : K → K) (m : CostMap K) (L : Vec K) (l : String) (old : List Int) :
    m.toOccupancyGridRd rd rf l old = ((withLength L m).toOccupancyGrid rf l old).map fun g =>
      { g with origin := ⟨rd (m.position.x - rd (1 / 2 * m.length.x)), rd (m.position.y - rd (1 / 2 * m.length.y))⟩ } := by
  unfold toOccupancyGridRd toOccupancyGrid Res.map
  have e1 : (withLength L m).timestamp = m.timestamp := rfl
  rw [e1]
  cases stampOf m.timestamp with
  | ok t =>
    simp only [Res.bind_ok]
    have e2 : Act.forIter CostMapIter.ops ((withLength L m).occupancyCell l ((withLength L m).size.x * (withLength L m).size.y).toNat)
      ((withLength L m).size.x.toNat * (withLength L m).size.y.toNat + 2) (CostMapIter.new (withLength L m))
      (resized old ((withLength L m).size.x * (withLength L m).size.y).toNat) = Act.forIter CostMapIter.ops
      (m.occupancyCell l (m.size.x * m.size.y).toNat)
      (m.size.x.toNat * m.size.y.toNat + 2) (CostMapIter.new m) (resized old (m.size.x * m.size.y).toNat) := rfl
    rw [e2]
    rcases Act.forIter CostMapIter.ops (m.occupancyCell l (m.size.x * m.size.y).toNat)
      (m.size.x.toNat * m.size.y.toNat + 2) (CostMapIter.new m) (resized old (m.size.x * m.size.y).toNat) with ⟨r, d⟩
    cases r <;> rfl
  | _ => rfl

/-- The lower end of an axis, computed in floating point. -/
theorem origin_near {rd : K → K} (hrd : DoublePrecision rd) {pos r : K} {n : Int} (hr : 0 < r) (hn : 0 < n) :
    |rd (pos - rd (1 / 2 * rd ((n : K) * r))) - (pos - n * r / 2)| ≤ extent n pos r / 2 ^ 50 := by
  have n0 : (0 : K) < n := by exact_mod_cast hn
  have hN : 0 < (n : K) * r := mul_pos n0 hr
  generalize hNN : (n : K) * r = N at hN ⊢
  have hE : extent n pos r = |pos| + N + r := by rw [← hNN]; unfold extent; ring
  have hp := abs_nonneg pos
  have e1 := hrd N
  rw [abs_of_pos hN, abs_le] at e1
  have s1 : N / 2 ^ 53 ≤ N / 8 := div_le_div_of_nonneg_left hN.le (by norm_num) (by norm_num)
  have e2 := hrd (1 / 2 * rd N)
  rw [abs_of_nonneg (a := 1 / 2 * rd N) (by linarith [e1.1]), abs_le] at e2
  have s2 : 1 / 2 * rd N / 2 ^ 53 ≤ N / 2 ^ 53 := div_le_div_of_nonneg_right (by linarith [e1.2]) (by norm_num)
  have e3 := hrd (pos - rd (1 / 2 * rd N))
  have s3 : |pos - rd (1 / 2 * rd N)| ≤ |pos| + N := by
    refine (abs_sub _ _).trans (add_le_add_right ?_ _)
    rw [abs_of_nonneg (by linarith [e1.1, e2.1])]
    linarith [e1.2, e2.2]
  have s4 := e3.trans (div_le_div_of_nonneg_right s3 (by norm_num : (0 : K) ≤ 2 ^ 53))
  rw [abs_le] at s4
  have s5 : (|pos| + N) / 2 ^ 53 + 2 * (N / 2 ^ 53) ≤ extent n pos r / 2 ^ 50 := by
    rw [hE, show (|pos| + N) / 2 ^ 53 + 2 * (N / 2 ^ 53) = (|pos| + 3 * N) / 2 ^ 53 by ring,
      div_le_div_iff₀ (by norm_num) (by norm_num)]
    have : (|pos| + 3 * N) * 2 ^ 50 ≤ (|pos| + N + r) * (8 * 2 ^ 50) := by linarith
    refine this.trans (le_of_eq ?_)
    norm_num
  rw [abs_le]
  have hN53 : 0 ≤ N / 2 ^ 53 := by positivity
  constructor <;> linarith [s4.1, s4.2, e1.1, e1.2, e2.1, e2.2]

/-- One axis of the placement in an occupancy grid, computed in floating point. -/
theorem axis_grid {rq : K → K} (hrq : DoublePrecision rq) {pos r rr o p : K} {n k : Int} (hr : 0 < r) (k0 : 0 ≤ k) (k1 : k < n)
    (he : |rr - r| ≤ r / 2 ^ 24) (ho : |o - (pos - n * r / 2)| ≤ extent n pos r / 2 ^ 50)
    (hp : |p - (pos + ((n : K) / 2 - k - 1 / 2) * r)| ≤ r / 2 - (extent n pos r / 2 ^ 48 + n * r / 2 ^ 24)) :
    ⌊rq (rq (p - o) / rr)⌋ = n - 1 - k := by
  rw [abs_le] at he ho hp
  have n0 : (1 : K) ≤ n := by exact_mod_cast (show 1 ≤ n by omega)
  have hrr : 0 < rr := by
    have : r / 2 ^ 24 < r := div_lt_self hr (by norm_num)
    linarith [he.1]
  have hN : 0 < (n : K) * r := by positivity
  have hE : extent n pos r = |pos| + n * r + r := by unfold extent; ring
  have hpp := abs_nonneg pos
  generalize hEE : extent n pos r = E at *
  have hE0 : 0 < E := by rw [hE]; linarith
  generalize hj : n - 1 - k = j
  have j0 : (0 : K) ≤ j := by exact_mod_cast (show 0 ≤ j by omega)
  have j1 : (j : K) + 1 ≤ n := by exact_mod_cast (show j + 1 ≤ n by omega)
  have hk : (k : K) = n - 1 - j := by
    have : k = n - 1 - j := by omega
    rw [this]; push_cast; ring
  rw [hk] at hp
  have ee : (pos : K) + (n / 2 - (n - 1 - j) - 1 / 2) * r = (pos - n * r / 2) + (j * r + r / 2) := by ring
  rw [ee] at hp
  have f1 : E / 2 ^ 48 = 32 * (E / 2 ^ 53) := by ring
  have f2 : E / 2 ^ 50 = 8 * (E / 2 ^ 53) := by ring
  have hδ : 0 < E / 2 ^ 53 := by positivity
  rw [f1] at hp
  rw [f2] at ho
  generalize hD : E / 2 ^ 53 = D at *
  have hF : 0 < (n : K) * r / 2 ^ 24 := by positivity
  have u1 : (j : K) * r + 24 * D + n * r / 2 ^ 24 ≤ p - o := by linarith [hp.1, ho.2]
  have u2 : p - o ≤ ((j : K) + 1) * r - 24 * D - n * r / 2 ^ 24 := by linarith [hp.2, ho.1]
  have jr : 0 ≤ (j : K) * r := by positivity
  have jr1 : ((j : K) + 1) * r ≤ n * r := mul_le_mul_of_nonneg_right j1 hr.le
  have up : 0 < p - o := by linarith
  have uE : p - o ≤ E := by rw [hE]; linarith
  have e1 := hrq (p - o)
  rw [abs_of_pos up, abs_le] at e1
  have s1 : (p - o) / 2 ^ 53 ≤ D := by rw [← hD]; exact div_le_div_of_nonneg_right uE (by norm_num)
  generalize hq : rq (p - o) = q at *
  have qp : 0 < q := by
    have : (p - o) / 2 ^ 53 < p - o := div_lt_self up (by norm_num)
    linarith [e1.1]
  have qE : q ≤ 2 * E := by
    have : D ≤ E := by rw [← hD]; exact div_le_self hE0.le (by norm_num)
    linarith [e1.2]
  have e2 := hrq (q / rr)
  rw [abs_of_pos (a := q / rr) (div_pos qp hrr)] at e2
  generalize hx : rq (q / rr) = x at *
  have e3 : |x * rr - q| ≤ 2 * D := by
    rw [show x * rr - q = (x - q / rr) * rr by field_simp, abs_mul, abs_of_pos hrr]
    refine (mul_le_mul_of_nonneg_right e2 hrr.le).trans ?_
    rw [show q / rr / 2 ^ 53 * rr = q / 2 ^ 53 by field_simp]
    have : q / 2 ^ 53 ≤ 2 * E / 2 ^ 53 := div_le_div_of_nonneg_right qE (by norm_num)
    rw [← hD]
    exact this.trans (le_of_eq (by ring))
  rw [abs_le] at e3
  have w : ((j : K) + 1) * (r / 2 ^ 24) ≤ n * r / 2 ^ 24 := by
    rw [show (n : K) * r / 2 ^ 24 = n * (r / 2 ^ 24) by ring]
    exact mul_le_mul_of_nonneg_right j1 (by positivity)
  have w0 : (j : K) * (rr - r) ≤ j * (r / 2 ^ 24) := mul_le_mul_of_nonneg_left he.2 j0
  have w1 : ((j : K) + 1) * (-(r / 2 ^ 24)) ≤ (j + 1) * (rr - r) := mul_le_mul_of_nonneg_left he.1 (by linarith)
  have w2 : (0 : K) < r / 2 ^ 24 := by positivity
  rw [Int.floor_eq_iff]
  constructor
  · refine le_of_mul_le_mul_right (?_ : (j : K) * rr ≤ x * rr) hrr
    linarith [e3.1, e1.1]
  · refine lt_of_mul_lt_mul_right (?_ : x * rr < ((j : K) + 1) * rr) hrr.le
    linarith [e3.2, e1.2]

/-- C95, for maps whose buffer starts at index zero: an occupancy grid made in floating point carries the frame, the time and the
size of the map, and at every position that is further from the borders of its cell than the tolerance a reader finds the
translation of the cost the map itself returns there, whether the reader computes exactly or in floating point. The tolerance
consists of the rounding in `double` and of one part in 2^24 of the size of the map, because the resolution is a `float`; the full
statement has no tolerance: see `C95_occupancy_false`. -/
theorem C95_occupancy_partial {rd rf : K → K} (hrd : DoublePrecision rd) {m : CostMap K} (hg : m.GeoRd rd) (htm : m.Tame)
    (hc : m.Coherent) (hs : m.startIndex = 0) {l : String} (hl : m.exists l = true) (ht : m.timestamp < 2 ^ 32 * 1000000000)
    (hrf : |rf m.resolution - m.resolution| ≤ m.resolution / 2 ^ 24) (old : List Int) :
    ∃ g, m.toOccupancyGridRd rd rf l old = .ok g ∧ g.frameId = m.frameId ∧ stampToNSec g.stampSec g.stampNsec = m.timestamp ∧
      g.width = m.size.x ∧ g.height = m.size.y ∧
      ∀ (i : Idx) (p : Vec K), i.In m.size → |p.x - (m.idealCentre i).x| ≤ m.resolution / 2 - m.gridTolX →
        |p.y - (m.idealCentre i).y| ≤ m.resolution / 2 - m.gridTolY →
        ∃ v, m.at l i = .ok v ∧ m.atPositionRd rd l p = .ok v ∧
          ∀ rq, DoublePrecision rq → g.valueAtRd rq p = some (occupancyOf v) := by
  obtain ⟨g0, a0, a1, a2, a3, a4, a5, -, -, a8⟩ := toOccupancyGrid_run rf (geo_withLength hg) (coherent_withLength _ hc) hl ht old
  have key := toOccupancyGridRd_eq rd rf m ⟨m.size.x * m.resolution, m.size.y * m.resolution⟩ l old
  rw [a0] at key
  refine ⟨_, key, a1, a2, a4, a5, fun i p hi hx hy => ?_⟩
  obtain ⟨v, hv, hd⟩ := a8 i hi
  have hlog : m.logical i = i := by
    obtain ⟨h1, h2, h3, h4⟩ := hi
    unfold logical
    rw [hs]; ext
    · simp [Int.emod_eq_of_lt h1 h2]
    · simp [Int.emod_eq_of_lt h3 h4]
  have px : (0 : K) < m.size.x := by exact_mod_cast hg.size_x
  have py : (0 : K) < m.size.y := by exact_mod_cast hg.size_y
  have hgx : m.tolX ≤ m.gridTolX := by unfold gridTolX; linarith [div_pos (mul_pos px hg.res_pos) (by norm_num : (0 : K) < 2 ^ 24)]
  have hgy : m.tolY ≤ m.gridTolY := by unfold gridTolY; linarith [div_pos (mul_pos py hg.res_pos) (by norm_num : (0 : K) < 2 ^ 24)]
  obtain ⟨-, hidx⟩ := C74_interior_of_cell hrd hg htm hi (p := p) (by rw [hlog]; exact hx.trans (by linarith))
    (by rw [hlog]; exact hy.trans (by linarith))
  refine ⟨v, hv, ?_, fun rq hrq => ?_⟩
  · unfold CostMap.atPositionRd
    rw [hidx]
    exact hv
  · obtain ⟨i1, i2, i3, i4⟩ := hi
    have fx := axis_grid (rr := rf m.resolution) hrq hg.res_pos i1 i2 hrf (origin_near hrd hg.res_pos hg.size_x) hx
    have fy := axis_grid (rr := rf m.resolution) hrq hg.res_pos i3 i4 hrf (origin_near hrd hg.res_pos hg.size_y) hy
    rw [← hg.len_x] at fx
    rw [← hg.len_y] at fy
    unfold OccupancyGrid.valueAtRd
    have a3' : g0.resolution = rf m.resolution := a3
    simp only [a3', fx, fy]
    have w : g0.width = m.size.x := a4
    have h : g0.height = m.size.y := a5
    rw [w, h, if_pos ⟨by omega, by omega, by omega, by omega⟩]
    exact hd

/-- C95. In particular at the centres of the cells, as the map computes them, when the map has at most 2^22 cells a side and the
rounding errors are less than an eighth of a cell. -/
theorem C95_occupancy_centres_partial {rd rf : K → K} (hrd : DoublePrecision rd) {m : CostMap K} (hg : m.GeoRd rd)
    (hc : m.Coherent) (hs : m.startIndex = 0) {l : String} (hl : m.exists l = true) (ht : m.timestamp < 2 ^ 32 * 1000000000)
    (hrf : |rf m.resolution - m.resolution| ≤ m.resolution / 2 ^ 24) (hx : m.size.x ≤ 2 ^ 22) (hy : m.size.y ≤ 2 ^ 22)
    (tx : m.tolX ≤ m.resolution / 8) (ty : m.tolY ≤ m.resolution / 8) (old : List Int) :
    ∃ g, m.toOccupancyGridRd rd rf l old = .ok g ∧ ∀ i : Idx, i.In m.size →
      ∃ p v, m.getPositionRd rd i = some p ∧ m.at l i = .ok v ∧ ∀ rq, DoublePrecision rq → g.valueAtRd rq p = some (occupancyOf v) := by
  have htm : m.Tame := by
    have hr := hg.res_pos
    constructor
    · unfold tolX at tx; rw [div_le_iff₀ (by norm_num)] at tx
      refine tx.trans (le_trans (le_of_eq ?_) (mul_le_mul_of_nonneg_right (show (2 : K) ^ 45 ≤ 2 ^ 47 by norm_num) hr.le))
      rw [show (2 : K) ^ 48 = 2 ^ 45 * 8 by norm_num]; ring
    · unfold tolY at ty; rw [div_le_iff₀ (by norm_num)] at ty
      refine ty.trans (le_trans (le_of_eq ?_) (mul_le_mul_of_nonneg_right (show (2 : K) ^ 45 ≤ 2 ^ 47 by norm_num) hr.le))
      rw [show (2 : K) ^ 48 = 2 ^ 45 * 8 by norm_num]; ring
  obtain ⟨g, h1, -, -, -, -, h2⟩ := C95_occupancy_partial hrd hg htm hc hs hl ht hrf old
  refine ⟨g, h1, fun i hi => ?_⟩
  obtain ⟨p, p1, p2, p3⟩ := C73_centre hrd hg htm hi
  have hlog : m.logical i = i := by
    obtain ⟨h1, h2, h3, h4⟩ := hi
    unfold logical
    rw [hs]; ext
    · simp [Int.emod_eq_of_lt h1 h2]
    · simp [Int.emod_eq_of_lt h3 h4]
  rw [hlog] at p2 p3
  have bound : ∀ n : Int, n ≤ 2 ^ 22 → (n : K) * m.resolution / 2 ^ 24 ≤ m.resolution / 4 := by
    intro n hn
    have : (n : K) ≤ 2 ^ 22 := by exact_mod_cast hn
    have := mul_le_mul_of_nonneg_right this hg.res_pos.le
    rw [div_le_div_iff₀ (by norm_num) (by norm_num)]
    rw [show (2 : K) ^ 24 = 2 ^ 22 * 4 by norm_num]
    linarith
  obtain ⟨v, v1, -, v3⟩ := h2 i p hi (p2.trans (by unfold gridTolX; linarith [bound _ hx])) (p3.trans (by unfold gridTolY; linarith [bound _ hy]))
  exact ⟨p, v, p1, v1, v3⟩

end

/-- Numbers of cells up to 2^23 are `float`s. -/
theorem toFloat_cells (n : Nat) (h : n < 2 ^ 23) : toFloat (n : ℚ) = n :=
  binRound_exact (by norm_num) ⟨n, 0, by rw [Nat.abs_cast]; exact_mod_cast (h.trans (by norm_num) : n < 2 ^ 24), by simp⟩

/-- D48. C95 is false of large bundles: the number of cells becomes a `float` before it is multiplied, so a bundle of 2^24 + 1 rows
gives a map of 2^24 rows. -/
theorem C95_bundle_false : ¬ ∀ (files : Files ℚ) (nx ny : Nat),
    files.yaml = .parsed ⟨some "map", some 0, some 0, some 1, some nx, some ny, some []⟩ → 0 < nx → 0 < ny →
    ∃ m', fromImageBundleRd toDouble toFloat Demo.cv files (CostMap.new []) = (.ok (), m') ∧ m'.size = ⟨nx, ny⟩ := by
  intro h
  obtain ⟨m', h1, h2⟩ := h ⟨.parsed ⟨some "map", some 0, some 0, some 1, some (2 ^ 24 + 1), some 1, some []⟩, fun _ => none⟩ _ _ rfl
    (by norm_num) (by norm_num)
  have e : (fromImageBundleRd toDouble toFloat Demo.cv
      ⟨.parsed ⟨some "map", some (0 : ℚ), some 0, some 1, some (2 ^ 24 + 1), some 1, some []⟩, fun _ => none⟩ (CostMap.new [])).2.size =
      ⟨2 ^ 24, 1⟩ := by decide +kernel
  rw [h1] at e
  rw [show m'.size = _ from e] at h2
  revert h2
  decide

namespace Demo
/-- Two cells of 1 + 2^-24 in a row; the lower one is lethal. -/
def wide : CostMap ℚ :=
  let r : ℚ := 1 + 1 / 2 ^ 24
  let m1 := (CostMap.setGeometryRd toDouble ⟨2 * r, r⟩ r ⟨0, 0⟩ (CostMap.new [])).2
  (CostMap.add "a" (Mat.ofFn 2 1 fun i _ => if i = 0 then 0 else 254) m1).2

theorem wide_geo : wide.GeoRd toDouble where
  res_pos := by decide +kernel
  size_x := by decide +kernel
  size_y := by decide +kernel
  len_x := by decide +kernel
  len_y := by decide +kernel
  start := by decide +kernel

theorem wide_coherent : wide.Coherent := by
  have h0 : (CostMap.new [] : CostMap ℚ).Coherent := CostMap.new_coherent (by simp)
  exact CostMap.add_coherent "a" _ _ (setGeometryRd_coherent toDouble_precision _ _ _ _ h0)
end Demo

/-- D48. C95 is false without a tolerance: the resolution of an occupancy grid is a `float`, so with cells of 1 + 2^-24 the borders of
the cells are displaced, and inside the lethal cell of `Demo.wide`, near its border, the grid shows its free neighbour. -/
theorem C95_occupancy_false : ¬ ∀ (m : CostMap ℚ) (l : String) (g : OccupancyGrid ℚ) (i : Idx) (p : Vec ℚ) (v : Cost),
    m.GeoRd toDouble → m.Coherent → m.startIndex = 0 → m.toOccupancyGridRd toDouble toFloat l [] = .ok g → i.In m.size →
    |p.x - (m.idealCentre i).x| < m.resolution / 2 → |p.y - (m.idealCentre i).y| < m.resolution / 2 →
    m.at l i = .ok v → m.atPositionRd toDouble l p = .ok v → g.valueAtRd toDouble p = some (occupancyOf v) := by
  intro h
  have := h Demo.wide "a"
    (match Demo.wide.toOccupancyGridRd toDouble toFloat "a" [] with | .ok g => g | _ => ⟨"", 0, 0, 0, 0, 0, ⟨0, 0⟩, []⟩)
    ⟨1, 0⟩ ⟨-1 / 2 ^ 25, 0⟩ 254 Demo.wide_geo Demo.wide_coherent (by decide +kernel) (by decide +kernel) (by decide +kernel)
    (by decide +kernel) (by decide +kernel) (by decide +kernel) (by decide +kernel)
  revert this
  decide +kernel

/-! ## The hypotheses can be met -/

example : ∃ msg, Demo.tenths.toMessage = .ok msg ∧ fromMessageRd toDouble msg (CostMap.new []) = (.ok true, Demo.tenths) := by
  obtain ⟨msg, h1, h2⟩ := C95_message_round_trip_partial C73_double Demo.tenths_geo Demo.tenths_coherent (by decide +kernel)
    (by decide +kernel) (by decide +kernel) (by decide +kernel) (by decide +kernel)
  exact ⟨msg, h1, h2 _ noLayers_new⟩

example : ∃ m', fromImageBundleRd toDouble toFloat Demo.cv Demo.files Demo.base = (.ok (), m') ∧ m'.GeoRd toDouble ∧
    m'.at "b" ⟨0, 0⟩ = .ok LETHAL_OBSTACLE := by
  obtain ⟨m', h1, -, h3, -, -, -, -, h2, -, -, -, -, h4⟩ := C95_load_bundle_partial C73_double close24_toFloat toFloat_cells Demo.cv
    (files := Demo.files) (entries := [("b", "good.png"), ("a", "missing.png"), ("b", "wrong.png"), ("c", "wrong.png")]) rfl
    (by decide +kernel) (by decide) (by decide) (by decide) (by decide) Demo.base_coherent
  obtain ⟨c, c1, c2⟩ := (h4 "b" "good.png" rfl).1 _ rfl rfl rfl ⟨0, 0⟩ (by rw [h2]; decide)
  refine ⟨m', h1, h3, ?_⟩
  rw [c2]
  have : (some c : Option Cost) = some LETHAL_OBSTACLE := by rw [← c1]; decide +kernel
  cases this
  rfl

example : ∃ f : Cost → Cost, ∃ files' m', Demo.tenths.toImageBundle toDouble ⟨.missing, fun _ => none⟩ = .ok files' ∧
    fromImageBundleRd toDouble toFloat Demo.cv files' (CostMap.new []) = (.ok (), m') ∧ m'.size = ⟨7, 7⟩ ∧
    m'.at "a" ⟨6, 3⟩ = .ok (f 63) := by
  obtain ⟨f, -, -, -, -, -, -, -, h⟩ := C95_bundle_round_trip_partial (txt := toDouble) C73_double close24_toFloat toFloat_cells
    Demo.cv_grayOk
  obtain ⟨files', h1, h2⟩ := h Demo.tenths Demo.tenths_geo Demo.tenths_coherent (by decide +kernel) (by decide +kernel)
    (by decide +kernel) ⟨.missing, fun _ => none⟩
  obtain ⟨m', a1, -, -, -, -, -, a5, -, -, -, a9⟩ := h2 _ noLayers_new
  exact ⟨f, files', m', h1, a1, a5.trans (by decide +kernel), a9 "a" ⟨6, 3⟩ 63 (by decide +kernel)⟩

example : ∃ g', toGridMapRd toDouble Demo.tenths GridMap.new = (.ok (), g') ∧ g'.length = Demo.tenths.length ∧
    ∃ v, g'.atPositionRd toDouble "a" ⟨-24 / 100, 0⟩ = .ok (some v) := by
  obtain ⟨f, -, -, -, -, h⟩ := C95_to_grid_map_partial (K := ℚ)
  obtain ⟨g', h1, -, -, h2, -, -, -, -, -, h3⟩ := h C73_double Demo.tenths Demo.tenths_geo Demo.tenths_coherent (by decide +kernel)
    (by decide +kernel) (by decide +kernel) _ gridMap_new_empty
  exact ⟨g', h1, h2, _, h3 "a" ⟨-24 / 100, 0⟩ 63 (by decide +kernel)⟩

example : ∃ g, Demo.tenths.toOccupancyGridRd toDouble toFloat "a" [7] = .ok g ∧
    g.valueAtRd toDouble ⟨-24 / 100, 1 / 100⟩ = some (occupancyOf 63) ∧ g.valueAtRd id ⟨-24 / 100, 1 / 100⟩ = some (occupancyOf 63) := by
  obtain ⟨g, h1, -, -, -, -, h2⟩ := C95_occupancy_partial C73_double Demo.tenths_geo Demo.tenths_tame Demo.tenths_coherent
    (by decide +kernel) (l := "a") (by decide +kernel) (by decide +kernel) (rf := toFloat) (by decide +kernel) [7]
  obtain ⟨v, v1, -, v3⟩ := h2 ⟨6, 3⟩ ⟨-24 / 100, 1 / 100⟩ (by decide +kernel) (by decide +kernel) (by decide +kernel)
  have e : Demo.tenths.at "a" ⟨6, 3⟩ = .ok 63 := by decide +kernel
  rw [e] at v1
  cases v1
  exact ⟨g, h1, v3 _ C73_double, v3 _ fun x => by simp; positivity⟩

example : ∃ g, Demo.tenths.toOccupancyGridRd toDouble toFloat "a" [] = .ok g ∧ ∃ p, Demo.tenths.getPositionRd toDouble ⟨6, 3⟩ = some p ∧
    g.valueAtRd toDouble p = some (occupancyOf 63) := by
  obtain ⟨g, h1, h2⟩ := C95_occupancy_centres_partial C73_double Demo.tenths_geo Demo.tenths_coherent
    (by decide +kernel) (l := "a") (by decide +kernel) (by decide +kernel) (rf := toFloat) (by decide +kernel) (by decide +kernel)
    (by decide +kernel) (by decide +kernel) (by decide +kernel) []
  obtain ⟨p, v, p1, v1, v3⟩ := h2 ⟨6, 3⟩ (by decide +kernel)
  have e : Demo.tenths.at "a" ⟨6, 3⟩ = .ok 63 := by decide +kernel
  rw [e] at v1
  cases v1
  exact ⟨g, h1, p, p1, v3 _ C73_double⟩

end CostMapModel

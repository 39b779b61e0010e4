import Verif.Spec.MachineBundle
import Verif.Props.MachineConversions
import Verif.Props.Streams

/-!
# Image bundles on the machine: C110

A map is saved, loaded and used again, by the program that runs: after any history of calls, with `double`s and `float`s that are
rounded and `int`s that overflow.
-/

set_option linter.unusedSectionVars false

namespace CostMapModel
open CostMap

section
variable {K : Type} [Field K] [LinearOrder K] [IsStrictOrderedRing K] [FloorRing K]

/-! ## Loading -/

theorem addLayerFromImageI_eq (cv : Cv) (img : Image) (l : String) {m : CostMap K} (hm : m.Fits) :
    addLayerFromImageI cv img l m = addLayerFromImage cv img l m := by
  unfold addLayerFromImageI addLayerFromImage
  split
  · rfl
  have h1 := stable_fits.addConst l NO_INFORMATION m hm
  unfold Act.bind
  revert h1
  rcases addConst l NO_INFORMATION m with ⟨r, m1⟩
  intro h1
  cases r <;> try rfl
  dsimp only
  split
  · rfl
  rw [forCellsI_eq (fun i => stable_fits.imageCell cv img l i) (fun _ _ _ => rfl) h1]

theorem Call.discard_eq {σ α : Type} {f g : Act σ α} {s : σ} (h : f s = g s) : Call.discard f s = Call.discard g s := by
  unfold Call.discard Act.bind
  rw [h]

/-- C110. Loading a bundle that fits the world: the machine does what rounded arithmetic on unbounded integers does (C95), on any map. -/
theorem C110_load_same {w : World K} {rd rf : K → K} (hrd : DoublePrecision rd) (cv : Cv) {files : Files K}
    (h : ∀ b, readInfo rf files.yaml = .ok b →
      w.Geometry ⟨rf (b.resolution * rf b.cellsX), rf (b.resolution * rf b.cellsY)⟩ b.resolution b.centre)
    {e : CostMap K} (he : e.Coherent) : fromImageBundleI rd rf cv files e = fromImageBundleRd rd rf cv files e := by
  unfold fromImageBundleI fromImageBundleRd
  cases hr : readInfo rf files.yaml with
  | ok b =>
    rw [Act.bind_ok (show Act.lift (.ok b) e = (.ok b, e) from rfl), Act.bind_ok (show Act.lift (.ok b) e = (.ok b, e) from rfl)]
    have hg := h b hr
    have r0 : 0 < b.resolution := w.cell_pos.trans_le hg.cell
    have hB : w.size ≤ 2 ^ 23 * b.resolution := w.cells.trans (by have := hg.cell; nlinarith)
    have hx := hg.high_x; have hy := hg.high_y
    obtain ⟨m1, e1, h1, -⟩ := setGeometryI_fits hrd hg he
    have e2 := C79_setGeometry hrd e (len := ⟨rf (b.resolution * rf b.cellsX), rf (b.resolution * rf b.cellsY)⟩) (r := b.resolution)
      (by linarith) (by linarith) b.centre
    rw [Act.bind_ok e1]
    rw [e1] at e2
    rw [Act.bind_ok e2.symm]
    rw [Act.bind_ok (show Act.modify (fun m : CostMap K => (m.setFrameId b.frameId).resetTimestamp) m1 =
      (.ok (), (m1.setFrameId b.frameId).resetTimestamp) from rfl),
      Act.bind_ok (show Act.modify (fun m : CostMap K => (m.setFrameId b.frameId).resetTimestamp) m1 =
      (.ok (), (m1.setFrameId b.frameId).resetTimestamp) from rfl)]
    refine forEach_congr_on (P := Fits) (fun p => ?_) (fun p s hs => ?_) _ _ (Fits.congr (m := m1) ⟨rfl, rfl, rfl, rfl, rfl⟩ h1.fits)
    · exact (stable_fits.addLayerFromImage cv _ p.1).bind fun _ => Act.Keeps.pure _
    · exact Call.discard_eq (addLayerFromImageI_eq cv _ p.1 hs)
  | _ => rfl

/-! ## Saving and loading -/

/-- What a saved bundle says. -/
theorem saved_info {txt rf : K → K} {m : CostMap K} {files files' : Files K} (h : m.toImageBundle txt files = .ok files')
    {b : BundleInfo K} (hb : readInfo rf files'.yaml = .ok b) : b.resolution = rf (txt m.resolution) ∧
      b.centre = ⟨txt m.position.x, txt m.position.x⟩ ∧ b.cellsX = m.size.x.toNat ∧ b.cellsY = m.size.y.toNat := by
  unfold toImageBundle at h
  cases hs : m.saveLayers m.layers files.images with
  | ok images =>
    rw [hs, Res.bind_ok] at h
    cases h
    simp only [readInfo] at hb
    revert hb
    cases readLayers (Option.getD (some (m.layers.map fun l => (⟨some l, some (l ++ ".png")⟩ : BundleLayer))) []) [] with
    | ok ls => intro hb; cases hb; exact ⟨rfl, rfl, rfl, rfl⟩
    | _ => intro hb; cases hb
  | _ => rw [hs] at h; cases h

theorem saves_cells {w : World K} {rf txt : K → K} {m : CostMap K} (hs : w.Saves rf txt m) : m.size.x < 2 ^ 23 ∧ m.size.y < 2 ^ 23 := by
  have r0 : 0 < rf (txt m.resolution) := w.cell_pos.trans_le hs.cell
  have hB : w.size ≤ 2 ^ 23 * rf (txt m.resolution) := w.cells.trans (by have := hs.cell; nlinarith)
  have key : ∀ {n : Int}, ((n : K) + 3) * rf (txt m.resolution) ≤ w.size → n < 2 ^ 23 := by
    intro n h
    have := le_of_mul_le_mul_right (h.trans hB) r0
    have : (n : K) < ((2 ^ 23 : Int) : K) := by push_cast; linarith
    exact_mod_cast this
  exact ⟨key hs.high_x, key hs.high_y⟩

/-- The bundle of a map that can be saved fits the world. -/
theorem saved_fits {w : World K} {rd rf txt : K → K} (hrf : Close24 rf) (hi : ∀ n : Nat, n < 2 ^ 23 → rf n = n) {m : CostMap K}
    (hg : m.GeoRd rd) (hs : w.Saves rf txt m) {files files' : Files K} (h : m.toImageBundle txt files = .ok files') :
    ∀ b, readInfo rf files'.yaml = .ok b →
      w.Geometry ⟨rf (b.resolution * rf b.cellsX), rf (b.resolution * rf b.cellsY)⟩ b.resolution b.centre := by
  intro b hb
  obtain ⟨b1, b2, b3, b4⟩ := saved_info h hb
  have r0 : 0 < rf (txt m.resolution) := w.cell_pos.trans_le hs.cell
  obtain ⟨cx, cy⟩ := saves_cells hs
  have key : ∀ {n : Int}, 0 < n → n < 2 ^ 23 → ((n : K) + 3) * rf (txt m.resolution) ≤ w.size →
      3 / 4 * rf (txt m.resolution) ≤ rf (rf (txt m.resolution) * rf (n.toNat : K)) ∧
      rf (rf (txt m.resolution) * rf (n.toNat : K)) + 2 * rf (txt m.resolution) ≤ w.size := by
    intro n n0 n1 h
    have en : ((n.toNat : Nat) : K) = (n : K) := by
      have : ((n.toNat : Int) : K) = (n : K) := by rw [Int.toNat_of_nonneg n0.le]
      exact_mod_cast this
    rw [hi n.toNat (by omega), en]
    have p1 : (1 : K) ≤ n := by exact_mod_cast n0
    have p2 : (n : K) ≤ 2 ^ 23 := by exact_mod_cast n1.le
    have q1 := mul_le_mul_of_nonneg_left p1 r0.le
    have q2 := mul_le_mul_of_nonneg_left p2 r0.le
    have := hrf (rf (txt m.resolution) * n) (by linarith)
    rw [abs_le] at this
    have e : rf (txt m.resolution) * n / 2 ^ 24 ≤ rf (txt m.resolution) / 2 := by
      rw [div_le_iff₀ (by norm_num)]
      calc rf (txt m.resolution) * n ≤ rf (txt m.resolution) * 2 ^ 23 := q2
        _ = rf (txt m.resolution) / 2 * 2 ^ 24 := by ring
    have e' : rf (txt m.resolution) * n / 2 ^ 24 ≤ rf (txt m.resolution) * n / 4 := by
      have : 0 ≤ rf (txt m.resolution) * n := by linarith
      rw [div_le_div_iff₀ (by norm_num) (by norm_num)]
      have : (4 : K) ≤ 2 ^ 24 := by norm_num
      nlinarith
    constructor
    · linarith [this.1]
    · linarith [this.2]
  obtain ⟨kx, kx'⟩ := key hg.size_x cx hs.high_x
  obtain ⟨ky, ky'⟩ := key hg.size_y cy hs.high_y
  rw [b1, b2, b3, b4]
  exact ⟨hs.cell, kx, ky, kx', ky', hs.centre, hs.centre⟩

/-- The map that comes back, and what the bundle keeps of places. -/
theorem bundleI_run {w : World K} {F : Fmt K} {rf txt : K → K} (hrd : DoublePrecision F.rd) (hF : IntsExact F.rd)
    (htop : 2 ^ 31 ≤ F.top) (hrf : Close24 rf) (hi : ∀ n : Nat, n < 2 ^ 23 → rf n = n) {cv : Cv} (hcv : cv.GrayOk) {m : CostMap K}
    (h : HeldI w F rf m) (hs : w.Saves rf txt m) (files : Files K) :
    ∃ files' m', m.toImageBundle txt files = .ok files' ∧ fromImageBundleI F.rd rf cv files' (CostMap.new []) = (.ok (), m') ∧
      HeldI w F rf m' ∧ m'.timestamp = 0 ∧ m'.startIndex = 0 ∧ m'.frameId = m.frameId ∧ m'.size = m.size ∧
      m'.resolution = rf (txt m.resolution) ∧ m'.position = ⟨txt m.position.x, txt m.position.x⟩ ∧ m'.layers.Perm m.layers ∧
      ∀ l i c, m.at l i = .ok c → m'.at l i = .ok (reloaded c) := by
  have hm := held_inWorld hrd hF htop h
  obtain ⟨cx, cy⟩ := saves_cells hs
  obtain ⟨files', h1, h2⟩ := bundleRd_run hrd hrf hi hcv m hm.geo hm.coherent hs.text cx cy files
  obtain ⟨m', a1, a2, a3, a4, a5, a6, a7, a8, a9, a10, a11⟩ := h2 _ noLayers_new
  have hfit := saved_fits hrf hi hm.geo hs h1
  have e : fromImageBundleI F.rd rf cv files' (CostMap.new []) = (.ok (), m') := by
    rw [C110_load_same hrd cv hfit (new_coherent (by simp)), a1]
  exact ⟨files', m', h1, e, .new (ls := []) (.fromImageBundle cv files') (by simp) trivial hfit e, a5, a4, a6, a7, a8, a9, a10, a11⟩

/-- C110. A map a program holds after any history of calls of C101 is saved and loaded, by the machine, into a new map: that is again a
map of C101, so that everything C101 says of it and of the calls that follow holds; its frame, its size, its layers and, up to one, its
costs by index are those of the first map. When the bundle keeps the place (`BundleSafe`), a position lies in one map if it lies in the
other, and a look-up by position gives the same cost, up to one. The full statement has this of every map: see `C110_false_moved` and
`C110_false_centre`. -/
theorem C110_history_partial {cv : Cv} (hcv : cv.GrayOk) : ∃ f : Cost → Cost,
    f NO_INFORMATION = NO_INFORMATION ∧ (∀ c, c ≠ NO_INFORMATION → f c ≠ NO_INFORMATION) ∧
    f LETHAL_OBSTACLE = LETHAL_OBSTACLE ∧ f INSCRIBED_OBSTACLE = INSCRIBED_OBSTACLE ∧ f FREE_SPACE = FREE_SPACE ∧
    (∀ c d, c ≤ d → f c ≤ f d) ∧ (∀ c : Cost, |((f c).toNat : ℤ) - c.toNat| ≤ 1) ∧
    ∀ {w : World K} {F : Fmt K} {rf txt : K → K}, DoublePrecision F.rd → IntsExact F.rd → 2 ^ 31 ≤ F.top → Close24 rf →
      (∀ n : Nat, n < 2 ^ 23 → rf n = n) → ∀ {m : CostMap K}, HeldI w F rf m → w.Saves rf txt m → ∀ files : Files K,
      ∃ files' m', m.toImageBundle txt files = .ok files' ∧ fromImageBundleI F.rd rf cv files' (CostMap.new []) = (.ok (), m') ∧
        HeldI w F rf m' ∧ m'.frameId = m.frameId ∧ m'.size = m.size ∧ m'.layers.Perm m.layers ∧
        (∀ l i c, m.at l i = .ok c → m'.at l i = .ok (f c)) ∧
        (m.BundleSafe rf txt → ∀ p, m'.isInsideRd F.rd p = m.isInsideRd F.rd p ∧
          ∀ l c, m.atPositionI F.rd l p = .ok c → m'.atPositionI F.rd l p = .ok (f c)) := by
  obtain ⟨v1, v2, v3, v4, v5, v6, v7⟩ := reloaded_spec
  refine ⟨reloaded, v1, v2, v3, v4, v5, v6, v7, fun {w F rf txt} hrd hF htop hrf hi m h hs files => ?_⟩
  obtain ⟨files', m', h1, h2, h3, -, h5, h6, h7, h8, h9, h10, h11⟩ := bundleI_run hrd hF htop hrf hi hcv h hs files
  refine ⟨files', m', h1, h2, h3, h6, h7, h10, h11, fun hb p => ?_⟩
  have g := (held_inWorld hrd hF htop h).geo
  have g' := (held_inWorld hrd hF htop h3).geo
  have er : m'.resolution = m.resolution := h8.trans hb.resolution
  have ep : m'.position = m.position := by
    rw [h9, hb.centre]
    calc (⟨m.position.x, m.position.x⟩ : Vec K) = ⟨m.position.x, m.position.y⟩ := by rw [hb.diagonal]
      _ = m.position := rfl
  have es : m'.startIndex = m.startIndex := h5.trans hb.start.symm
  have el : m'.length = m.length := by
    calc m'.length = ⟨m'.length.x, m'.length.y⟩ := rfl
      _ = ⟨m.length.x, m.length.y⟩ := by rw [g'.len_x, g'.len_y, g.len_x, g.len_y, h7, er]
      _ = m.length := rfl
  refine ⟨by unfold isInsideRd; rw [el, ep], fun l c hc => ?_⟩
  have ei : m'.getIndexI F.rd p = m.getIndexI F.rd p := by unfold getIndexI; rw [el, ep, er, h7, es]
  unfold atPositionI at hc ⊢
  rw [ei]
  revert hc
  cases m.getIndexI F.rd p with
  | none => intro hc; cases hc
  | some q =>
    obtain ⟨i, b⟩ := q
    cases b
    · intro hc; cases hc
    · exact h11 l i c

/-- C110. The same over the two nodes: the map arrives in a message at a node that saves it, whatever it refused before and is sent
afterwards; a node that loads the bundle publishes a message, and a subscriber gets the map of `C110_history_partial` from it. -/
theorem C110_nodes_partial {cv : Cv} (hcv : cv.GrayOk) : ∃ f : Cost → Cost,
    f NO_INFORMATION = NO_INFORMATION ∧ (∀ c, c ≠ NO_INFORMATION → f c ≠ NO_INFORMATION) ∧
    f LETHAL_OBSTACLE = LETHAL_OBSTACLE ∧ f INSCRIBED_OBSTACLE = INSCRIBED_OBSTACLE ∧ f FREE_SPACE = FREE_SPACE ∧
    (∀ c d, c ≤ d → f c ≤ f d) ∧ (∀ c : Cost, |((f c).toNat : ℤ) - c.toNat| ≤ 1) ∧
    ∀ {w : World K} {F : Fmt K} {rf txt : K → K}, DoublePrecision F.rd → IntsExact F.rd → 2 ^ 31 ≤ F.top → Close24 rf →
      (∀ n : Nat, n < 2 ^ 23 → rf n = n) → ∀ {m : CostMap K}, HeldI w F rf m → w.Saves rf txt m →
      m.timestamp < 2 ^ 32 * 10 ^ 9 → m.startIndex.x < 2 ^ 16 → m.startIndex.y < 2 ^ 16 →
      ∃ msg, m.toMessage = .ok msg ∧ ∀ (before after : List (CostMapMsg K)), (∀ x ∈ before, RefusedI F.rd x) → ∀ files : Files K,
      ∃ files' msg' m', SaveNode.runI F.rd txt (before ++ msg :: after) (.new files) = (.ok (), ⟨true, files', [m]⟩) ∧
        loadImageBundleI F.rd rf cv files' = .ok msg' ∧ (∀ e : CostMap K, NoLayers e → fromMessageI F.rd msg' e = (.ok true, m')) ∧
        HeldI w F rf m' ∧ m'.frameId = m.frameId ∧ m'.size = m.size ∧ m'.layers.Perm m.layers ∧
        ∀ l i c, m.at l i = .ok c → m'.at l i = .ok (f c) := by
  obtain ⟨v1, v2, v3, v4, v5, v6, v7⟩ := reloaded_spec
  refine ⟨reloaded, v1, v2, v3, v4, v5, v6, v7, fun {w F rf txt} hrd hF htop hrf hi m h hs ht sx sy => ?_⟩
  obtain ⟨msg, k1, k2⟩ := C108_history_message_partial hrd hF htop h ht sx sy
  refine ⟨msg, k1, fun before after hb files => ?_⟩
  obtain ⟨files', m', h1, h2, h3, h4, h5, h6, h7, h8, h9, h10, h11⟩ := bundleI_run hrd hF htop hrf hi hcv h hs files
  obtain ⟨msg', t1, t2⟩ := C108_history_message_partial hrd hF htop h3 (by rw [h4]; norm_num) (by rw [h5]; decide) (by rw [h5]; decide)
  refine ⟨files', msg', m', ?_, by unfold loadImageBundleI; simp only [h2]; exact t1, t2, h3, h6, h7, h10, h11⟩
  have fin : ∀ (msgs : List (CostMapMsg K)) (s : SaveNode K), s.finished = true → SaveNode.runI F.rd txt msgs s = (.ok (), s) := by
    intro msgs
    induction msgs with
    | nil => intro s _; rfl
    | cons x xs ih =>
      intro s hs
      have : SaveNode.callbackI F.rd txt x s = (.ok (), s) := by unfold SaveNode.callbackI; rw [if_pos hs]
      rw [show SaveNode.runI F.rd txt (x :: xs) = Act.bind (SaveNode.callbackI F.rd txt x) (fun _ => SaveNode.runI F.rd txt xs) from rfl,
        Act.bind_ok this]
      exact ih s hs
  induction before with
  | nil =>
    have : SaveNode.callbackI F.rd txt msg (.new files) = (.ok (), ⟨true, files', [m]⟩) := by
      unfold SaveNode.callbackI
      rw [if_neg (by simp [SaveNode.new])]
      simp only [k2 _ noLayers_new, SaveNode.new, h1, List.nil_append]
    rw [List.nil_append, show SaveNode.runI F.rd txt (msg :: after) = Act.bind (SaveNode.callbackI F.rd txt msg)
      (fun _ => SaveNode.runI F.rd txt after) from rfl, Act.bind_ok this]
    exact fin _ _ rfl
  | cons x before ih =>
    have hx : SaveNode.callbackI F.rd txt x (.new files) = (.ok (), .new files) := by
      unfold SaveNode.callbackI
      rw [if_neg (by simp [SaveNode.new])]
      have := hb x (by simp)
      unfold RefusedI at this
      rcases e : fromMessageI F.rd x (CostMap.new []) with ⟨r, q⟩
      rw [e] at this
      simp only at this
      subst this
      rfl
    rw [List.cons_append, show SaveNode.runI F.rd txt (x :: (before ++ msg :: after)) = Act.bind (SaveNode.callbackI F.rd txt x)
      (fun _ => SaveNode.runI F.rd txt (before ++ msg :: after)) from rfl, Act.bind_ok hx]
    exact ih fun y hy => hb y (by simp [hy])

end

/-! ## A case, and what the bundle loses -/

namespace Demo

/-- Three by two cells of a quarter around (1, 1). -/
def quarterEmpty : CostMap ℚ := (setGeometryI toDouble ⟨3 / 4, 1 / 2⟩ (1 / 4) ⟨1, 1⟩ (CostMap.new [])).2

/-- The same with a lethal cell. -/
def quarterMap : CostMap ℚ := (CostMap.add "a" (Mat.ofFn 3 2 fun i j => if i = 1 ∧ j = 1 then 254 else 0) quarterEmpty).2

/-- The same, moved by a cell along both axes. -/
def quarterMoved : CostMap ℚ := (moveI toDouble ⟨3 / 4, 3 / 4⟩ quarterMap).2

theorem ok_pair {σ : Type} {r : Res Unit × σ} (h : r.1 = .ok ()) : r = (.ok (), r.2) := by
  rcases r with ⟨r, s⟩
  cases h
  rfl

theorem quarterMap_held : HeldI hundred binary64 toFloat quarterMap := by
  refine .returned (.plain (.add "a" (Mat.ofFn 3 2 fun i j => if i = 1 ∧ j = 1 then 254 else 0))) (m := quarterEmpty) ?_ trivial
    (ok_pair (by decide +kernel))
  exact .new (ls := []) (.setGeometry ⟨3 / 4, 1 / 2⟩ (1 / 4) ⟨1, 1⟩) (by simp) trivial
    ⟨by decide +kernel, by decide +kernel, by decide +kernel, by decide +kernel, by decide +kernel, by unfold PointIn; decide +kernel⟩
    (ok_pair (by decide +kernel))

theorem quarterMap_saves : hundred.Saves toFloat id quarterMap :=
  ⟨by decide +kernel, by decide +kernel, by decide +kernel, by decide +kernel, by decide +kernel⟩

theorem quarterMoved_held : HeldI hundred binary64 toFloat quarterMoved := by
  have hd : ∀ {α : Type} {f : Act (CostMap ℚ) α} {m : CostMap ℚ}, (Call.discard f m).2 = (f m).2 := by
    intro α f m
    unfold Call.discard Act.bind
    rcases f m with ⟨r, s⟩
    cases r <;> rfl
  refine .returned (.move ⟨3 / 4, 3 / 4⟩) quarterMap_held ⟨by unfold PointIn; decide +kernel, by decide +kernel⟩ ?_
  rw [ok_pair (r := MachineCall.run binary64 toFloat (.move ⟨3 / 4, 3 / 4⟩) quarterMap) (by decide +kernel)]
  exact congrArg _ hd

/-- The map saved to an empty directory and loaded again. -/
def bundleOf (m : CostMap ℚ) : Files ℚ := match m.toImageBundle id ⟨.missing, fun _ => none⟩ with
  | .ok f => f
  | _ => ⟨.missing, fun _ => none⟩

def reload (m : CostMap ℚ) : CostMap ℚ := (fromImageBundleI toDouble toFloat Demo.cv (bundleOf m) (CostMap.new [])).2

theorem reload_eq {m : CostMap ℚ} (h : HeldI hundred binary64 toFloat m) (hs : hundred.Saves toFloat id m) :
    m.toImageBundle id ⟨.missing, fun _ => none⟩ = .ok (bundleOf m) ∧
      fromImageBundleI toDouble toFloat Demo.cv (bundleOf m) (CostMap.new []) = (.ok (), reload m) := by
  obtain ⟨files', m', h1, h2, -⟩ := bundleI_run (F := binary64) toDouble_precision toDouble_ints top64 close24_toFloat toFloat_cells
    Demo.cv_grayOk h hs ⟨.missing, fun _ => none⟩
  have e : bundleOf m = files' := by unfold bundleOf; rw [h1]
  refine ⟨by rw [e]; exact h1, ok_pair ?_⟩
  rw [e]
  exact congrArg Prod.fst h2

end Demo

/-- D4 on the machine: C110 without the condition on the buffer is false. A map of quarters, which was moved by a cell, is lethal at
(1, 7/8); the map that is loaded from its bundle is unknown there. -/
theorem C110_false_moved : ∃ (m m' : CostMap ℚ) (files' : Files ℚ) (p : Vec ℚ), HeldI Demo.hundred binary64 toFloat m ∧
    Demo.hundred.Saves toFloat id m ∧ m.position.y = m.position.x ∧ toFloat m.resolution = m.resolution ∧
    m.toImageBundle id ⟨.missing, fun _ => none⟩ = .ok files' ∧
    fromImageBundleI toDouble toFloat Demo.cv files' (CostMap.new []) = (.ok (), m') ∧
    m.atPositionI toDouble "a" p = .ok LETHAL_OBSTACLE ∧ m'.atPositionI toDouble "a" p = .ok NO_INFORMATION := by
  have hs : Demo.hundred.Saves toFloat id Demo.quarterMoved :=
    ⟨by decide +kernel, by decide +kernel, by decide +kernel, by decide +kernel, by decide +kernel⟩
  obtain ⟨e1, e2⟩ := Demo.reload_eq Demo.quarterMoved_held hs
  exact ⟨Demo.quarterMoved, _, _, ⟨1, 7 / 8⟩, Demo.quarterMoved_held, hs, by decide +kernel, by decide +kernel, e1, e2,
    by decide +kernel, by decide +kernel⟩

/-- D2 on the machine: C110 without the condition on the centre is false. The map of C74, around (0.1, 0), has a cost at (0.1, -0.3);
the map that is loaded from its bundle is around (0.1, 0.1) and has none there. -/
theorem C110_false_centre : ∃ (m' : CostMap ℚ) (files' : Files ℚ), HeldI Demo.hundred binary64 toFloat Demo.tenths ∧
    Demo.hundred.Saves toFloat id Demo.tenths ∧ Demo.tenths.startIndex = 0 ∧
    Demo.tenths.toImageBundle id ⟨.missing, fun _ => none⟩ = .ok files' ∧
    fromImageBundleI toDouble toFloat Demo.cv files' (CostMap.new []) = (.ok (), m') ∧
    Demo.tenths.atPositionI toDouble "a" ⟨1 / 10, -3 / 10⟩ = .ok 36 ∧
    m'.atPositionI toDouble "a" ⟨1 / 10, -3 / 10⟩ = .thrown .outOfRange := by
  have hs : Demo.hundred.Saves toFloat id Demo.tenths :=
    ⟨by decide +kernel, by decide +kernel, by decide +kernel, by decide +kernel, by decide +kernel⟩
  obtain ⟨e1, e2⟩ := Demo.reload_eq Demo.tenths_held hs
  exact ⟨_, _, Demo.tenths_held, hs, by decide +kernel, e1, e2, by decide +kernel, by decide +kernel⟩

-- The hypotheses are met: the map of quarters is saved, loaded, moved and read.
example : ∃ (files' : Files ℚ) (m' : CostMap ℚ) (f : Cost → Cost), Demo.quarterMap.toImageBundle id ⟨.missing, fun _ => none⟩ = .ok files' ∧
    fromImageBundleI toDouble toFloat Demo.cv files' (CostMap.new []) = (.ok (), m') ∧
    m'.atPositionI toDouble "a" ⟨1, 7 / 8⟩ = .ok (f 254) ∧ f 254 = (254 : Cost) ∧
    (PointIn Demo.hundred.size ⟨3 / 4, 3 / 4⟩ → (∀ l ∈ m'.basicLayers, m'.exists l = true) →
      (MachineCall.run binary64 toFloat (.move ⟨3 / 4, 3 / 4⟩) m').1.Defined) := by
  obtain ⟨f, -, -, f3, -, -, -, -, h⟩ := C110_history_partial (K := ℚ) Demo.cv_grayOk
  obtain ⟨files', m', h1, h2, h3, -, -, -, -, h8⟩ := h (F := binary64) (txt := id) toDouble_precision toDouble_ints Demo.top64
    close24_toFloat toFloat_cells Demo.quarterMap_held Demo.quarterMap_saves ⟨.missing, fun _ => none⟩
  refine ⟨files', m', f, h1, h2, (h8 ⟨by decide +kernel, by decide +kernel, by decide +kernel, by decide +kernel⟩ ⟨1, 7 / 8⟩).2 "a" 254
    (by decide +kernel), f3, fun p b => ?_⟩
  exact C101_defined_partial (F := binary64) toDouble_precision toDouble_ints Demo.top64 h3 _ ⟨p, b⟩

example : ∃ msg, Demo.quarterMoved.toMessage = .ok msg ∧ ∃ files' msg' m',
    SaveNode.runI toDouble id [{ msg with data := [] }, msg, msg] (.new ⟨.missing, fun _ => none⟩) =
      (.ok (), ⟨true, files', [Demo.quarterMoved]⟩) ∧
    loadImageBundleI toDouble toFloat Demo.cv files' = .ok msg' ∧ fromMessageI toDouble msg' (CostMap.new []) = (.ok true, m') ∧
    m'.size = ⟨3, 2⟩ := by
  obtain ⟨f, -, -, -, -, -, -, -, h⟩ := C110_nodes_partial (K := ℚ) Demo.cv_grayOk
  obtain ⟨msg, h1, h2⟩ := h (F := binary64) (txt := id) toDouble_precision toDouble_ints Demo.top64
    close24_toFloat toFloat_cells Demo.quarterMoved_held
    ⟨by decide +kernel, by decide +kernel, by decide +kernel, by decide +kernel, by decide +kernel⟩ (by decide +kernel)
    (by decide +kernel) (by decide +kernel)
  have hr : ∀ q, Demo.quarterMoved.toMessage = .ok q → RefusedI toDouble { q with data := [] } := by
    have key : (match Demo.quarterMoved.toMessage with
      | .ok q => (fromMessageI toDouble { q with data := [] } (CostMap.new [])).1
      | _ => .ub) = .ok false := by decide +kernel
    intro q hq
    rw [hq] at key
    exact key
  obtain ⟨files', msg', m', a1, a2, a3, -, -, a6, -⟩ := h2 [{ msg with data := [] }] [msg]
    (by intro x hx; rw [List.mem_singleton.1 hx]; exact hr _ h1) ⟨.missing, fun _ => none⟩
  exact ⟨msg, h1, files', msg', m', a1, a2, a3 _ noLayers_new, a6.trans (by decide +kernel)⟩

end CostMapModel

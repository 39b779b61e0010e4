import Verif.Lemmas.Image
import Verif.Lemmas.Occupancy

/-!
# C54, C55: images as layers
-/

set_option linter.unusedSectionVars false

namespace CostMapModel
open CostMap
variable {K : Type} [Field K] [LinearOrder K] [IsStrictOrderedRing K] [FloorRing K]

/-- The samples of an 8-bit image are what its pixels stand for. -/
theorem sample_costAt8 {cv : Cv} {img : Image} (h : img.Is8) {i : Idx} {s : Option Nat} (hs : img.sample cv i = .ok s) :
    img.costAt cv i = some (sampleCost img.depth s) := by
  have lt : ∀ a : UInt8, a.toNat < 256 / 2 ↔ a < 128 := fun a => by rw [UInt8.lt_iff_toNat_lt]; rfl
  cases img with
  | mono8 p =>
    simp only [Image.sample] at hs
    cases hg : p.get? i.x i.y with
    | none => rw [hg] at hs; cases hs
    | some v => rw [hg] at hs; cases hs; simp [Image.costAt, hg, sampleCost, Image.depth]
  | bgr8 p =>
    simp only [Image.sample] at hs
    cases hg : p.get? i.x i.y with
    | none => rw [hg] at hs; cases hs
    | some v => rw [hg] at hs; cases hs; simp [Image.costAt, hg, sampleCost, Image.depth]
  | bgra8 p =>
    simp only [Image.sample] at hs
    cases hg : p.get? i.x i.y with
    | none => rw [hg] at hs; cases hs
    | some v =>
      rw [hg] at hs
      simp only [Res.ofOption, Res.map, Res.bind_ok, Res.ok.injEq, lt] at hs
      simp only [Image.costAt, hg, Option.map_some, Image.depth]
      split at hs <;> cases hs
      · rename_i h; rw [if_pos h]; rfl
      · rename_i h; rw [if_neg h]; rfl
  | mono16 p => cases h
  | bgr16 p => cases h
  | bgra16 p => cases h
  | other _ _ => cases h
  | malformed _ _ => cases h

/-- C54. An 8-bit image of the map's size: the call returns true, every cell of the layer gets what the pixel at its index
stands for, and nothing else changes. -/
theorem C54_image_layer (cv : Cv) {m : CostMap K} (hg : m.Geo) (hc : m.Coherent) {img : Image} (h8 : img.Is8)
    (hh : m.size.x = img.height) (hw : m.size.y = img.width) (l : String) :
    ∃ m', addLayerFromImage cv img l m = (.ok true, m') ∧
      (∀ i, i.In m.size → ∃ c, img.costAt cv i = some c ∧ m'.at l i = .ok c) ∧
      (∀ l' i, l' ≠ l → m'.at l' i = m.at l' i) ∧
      m'.layers = (if m.exists l then m.layers else m.layers ++ [l]) ∧ SameGeometry m m' ∧ SameMeta m m' := by
  have hr : img.readable = true := by cases img <;> first | rfl | cases h8
  obtain ⟨m', h1, -, h3, h4, h5, h6, h7⟩ := addLayerFromImage_run cv hg hc hr hh hw l
  refine ⟨m', h1, fun i hi => ?_, h6, h5, h3, h4⟩
  obtain ⟨s, s1, s2⟩ := h7 i hi
  exact ⟨_, sample_costAt8 h8 s1, s2⟩

/-- C54. The costs of gray values: black is lethal, white is free, darker is never cheaper, and no gray value gives the
cost reserved for unknown. -/
theorem C54_gray_costs : grayCost 256 0 = LETHAL_OBSTACLE ∧ grayCost 256 255 = FREE_SPACE ∧
    (∀ g, g < 256 → (grayCost 256 g).toNat = ⌊(254 * (1 - (g : ℚ) / 256) : ℚ)⌋ ∧ grayCost 256 g ≠ NO_INFORMATION) ∧
    ∀ g g', g ≤ g' → g' < 256 → grayCost 256 g' ≤ grayCost 256 g := by
  refine ⟨by decide, by decide, by decide +kernel, ?_⟩
  intro g g' h h'
  have e : ∀ g, g < 256 → (grayCost 256 g).toNat = 254 * (256 - g) / 256 := by decide +kernel
  rw [UInt8.le_iff_toNat_le, e _ h', e _ (by omega)]
  exact Nat.div_le_div_right (by omega)

/-- C54. An image in an encoding the function does not know, or one cv_bridge rejects: false, and the map is unchanged. -/
theorem C54_unreadable_unchanged (cv : Cv) (m : CostMap K) {img : Image} (h : ¬ img.Is8 ∧ ¬ img.Is16) (l : String) :
    addLayerFromImage cv img l m = (.ok false, m) := by
  obtain ⟨h8, h16⟩ := h
  cases img <;> first | exact absurd trivial h8 | exact absurd trivial h16 | rfl

/-- C54. An image of another size: false. The layer is there afterwards and holds no information anywhere, also if it
existed before; nothing else changes. -/
theorem C54_wrong_size (cv : Cv) {m : CostMap K} (hg : m.Geo) (hc : m.Coherent) {img : Image} (h : img.Is8 ∨ img.Is16)
    (hs : ¬ (m.size.x = img.height ∧ m.size.y = img.width)) (l : String) :
    ∃ m', addLayerFromImage cv img l m = (.ok false, m') ∧ (∀ i, i.In m.size → m'.at l i = .ok NO_INFORMATION) ∧
      (∀ l' i, l' ≠ l → m'.at l' i = m.at l' i) ∧
      m'.layers = (if m.exists l then m.layers else m.layers ++ [l]) ∧ SameGeometry m m' ∧ SameMeta m m' := by
  have hr : img.readable = true := by
    cases img <;> first | rfl | (rcases h with h | h <;> cases h)
  obtain ⟨m1, e1, -, -, sg, sm, ly, un, ot⟩ := addConst_run hg.size_x.le hg.size_y.le hc l NO_INFORMATION
  refine ⟨m1, ?_, un, fun l' i hl => at_congr (ot l' hl) i, ly, sg, sm⟩
  unfold addLayerFromImage
  rw [if_neg (by simp [hr]), Act.bind_ok e1]
  rw [if_pos (by rw [sg.size]; by_contra hn; push Not at hn; exact hs hn)]

/-- An opencv-like gray conversion (the weighted mean in fixed point) on a little-endian machine. -/
def Demo.cv : Cv where
  gray8 b g r := UInt8.ofNat ((b.toNat * 1868 + g.toNat * 9617 + r.toNat * 4899 + 8192) / 16384)
  gray16 b g r := UInt16.ofNat ((b.toNat * 1868 + g.toNat * 9617 + r.toNat * 4899 + 8192) / 16384)
  bigEndian := false

theorem Demo.cv_grayOk : Demo.cv.GrayOk where
  gray8 v := by
    change UInt8.ofNat _ = v
    have : (v.toNat * 1868 + v.toNat * 9617 + v.toNat * 4899 + 8192) / 16384 = v.toNat := by omega
    rw [this, UInt8.ofNat_toNat]
  gray16 v := by
    change UInt16.ofNat _ = v
    have : (v.toNat * 1868 + v.toNat * 9617 + v.toNat * 4899 + 8192) / 16384 = v.toNat := by omega
    rw [this, UInt16.ofNat_toNat]

/-- A 5 x 4 image with an alpha channel; its first column is transparent. -/
def Demo.image : Image := .bgra8 (Mat.ofFn 5 4 fun i j => (UInt8.ofNat (50 * i.toNat), 0, UInt8.ofNat j.toNat, if j = 0 then 127 else 128))

example : ∃ m', addLayerFromImage Demo.cv Demo.image "c" Demo.rotated = (.ok true, m') ∧ m'.layers = ["a", "b", "c"] ∧
    m'.at "c" ⟨2, 0⟩ = .ok NO_INFORMATION ∧ m'.at "c" ⟨2, 1⟩ = .ok 242 := by
  obtain ⟨m', h1, h2, -, h4, -, -⟩ := C54_image_layer Demo.cv Demo.rotated_geo Demo.rotated_coherent (img := Demo.image) trivial
    (by decide +kernel) (by decide +kernel) "c"
  refine ⟨m', h1, h4.trans (by decide +kernel), ?_, ?_⟩
  · obtain ⟨c, c1, c2⟩ := h2 ⟨2, 0⟩ (by decide +kernel)
    rw [c2, ← Option.some_inj.1 ((show Demo.image.costAt Demo.cv ⟨2, 0⟩ = some NO_INFORMATION by decide +kernel).symm.trans c1)]
  · obtain ⟨c, c1, c2⟩ := h2 ⟨2, 1⟩ (by decide +kernel)
    rw [c2, ← Option.some_inj.1 ((show Demo.image.costAt Demo.cv ⟨2, 1⟩ = some 242 by decide +kernel).symm.trans c1)]
example : addLayerFromImage Demo.cv (.other 5 4) "a" Demo.base = (.ok false, Demo.base) :=
  C54_unreadable_unchanged _ _ ⟨id, id⟩ _
example : ∃ m', addLayerFromImage Demo.cv (.mono8 (Mat.const 4 5 0)) "a" Demo.base = (.ok false, m') ∧
    m'.at "a" ⟨2, 1⟩ = .ok NO_INFORMATION := by
  obtain ⟨m', h1, h2, -⟩ := C54_wrong_size Demo.cv Demo.base_geo Demo.base_coherent (img := .mono8 (Mat.const 4 5 0))
    (.inl trivial) (by decide +kernel) "a"
  exact ⟨m', h1, h2 _ (by decide +kernel)⟩

/-! ## C55 -/

theorem read16_big {cv : Cv} (h : cv.bigEndian = true) (v : UInt16) : cv.read16 v = v.toNat := by
  unfold Cv.read16; rw [if_pos h]; omega

theorem read16_little {cv : Cv} (h : cv.bigEndian = false) (v : UInt16) : cv.read16 v = (swap16 v).toNat := by
  unfold Cv.read16 swap16
  rw [if_neg (by simp [h])]
  have := v.toNat_lt
  rw [UInt16.toNat_ofNat_of_lt' (by change _ < 65536; omega)]

theorem sample_costAt16 {cv : Cv} (he : cv.bigEndian = true) {img : Image} (h : img.Is16) {i : Idx} {s : Option Nat}
    (hs : img.sample cv i = .ok s) : img.costAt cv i = some (sampleCost img.depth s) := by
  have lt : ∀ a : UInt16, a.toNat < 65536 / 2 ↔ a < 32768 := fun a => by rw [UInt16.lt_iff_toNat_lt]; rfl
  cases img with
  | mono16 p =>
    simp only [Image.sample] at hs
    cases hg : p.get? i.x i.y with
    | none => rw [hg] at hs; cases hs
    | some v => rw [hg] at hs; cases hs; simp [Image.costAt, hg, sampleCost, Image.depth, read16_big he]
  | bgr16 p =>
    simp only [Image.sample] at hs
    cases hg : p.get? i.x i.y with
    | none => rw [hg] at hs; cases hs
    | some v => rw [hg] at hs; cases hs; simp [Image.costAt, hg, sampleCost, Image.depth, read16_big he]
  | bgra16 p =>
    simp only [Image.sample] at hs
    cases hg : p.get? i.x i.y with
    | none => rw [hg] at hs; cases hs
    | some v =>
      rw [hg] at hs
      simp only [Res.ofOption, Res.map, Res.bind_ok, Res.ok.injEq, read16_big he, lt] at hs
      simp only [Image.costAt, hg, Option.map_some, Image.depth]
      split at hs <;> cases hs
      · rename_i h; rw [if_pos h]; rfl
      · rename_i h; rw [if_neg h]; rfl
  | mono8 p => cases h
  | bgr8 p => cases h
  | bgra8 p => cases h
  | other _ _ => cases h
  | malformed _ _ => cases h

/-- The costs of 16-bit gray values, as the claim has them. -/
theorem C55_gray_costs : grayCost 65536 0 = LETHAL_OBSTACLE ∧ grayCost 65536 65535 = FREE_SPACE ∧
    (∀ g, g < 65536 → ((grayCost 65536 g).toNat : Int) = ⌊(254 * (1 - (g : ℚ) / 65536) : ℚ)⌋ ∧
      grayCost 65536 g ≠ NO_INFORMATION) ∧
    ∀ g g', g ≤ g' → g' < 65536 → grayCost 65536 g' ≤ grayCost 65536 g := by
  have e : ∀ g, (grayCost 65536 g).toNat = 254 * (65536 - g) / 65536 := by
    intro g
    unfold grayCost
    exact UInt8.toNat_ofNat_of_lt' (by change _ < 256; omega)
  refine ⟨by decide, by decide, fun g hg => ⟨?_, ?_⟩, ?_⟩
  · rw [e]
    have : (254 * (1 - (g : ℚ) / 65536) : ℚ) = ((254 * (65536 - g) : Nat) : ℚ) / (65536 : Nat) := by
      rw [Nat.cast_mul, Nat.cast_sub hg.le]; push_cast; ring
    rw [this]
    have := Rat.floor_intCast_div_natCast (254 * (65536 - g) : Nat) 65536
    push_cast at this ⊢
    exact this.symm
  · intro h
    have := congrArg UInt8.toNat h
    rw [e] at this
    change 254 * (65536 - g) / 65536 = 255 at this
    omega
  · intro g g' h h'
    rw [UInt8.le_iff_toNat_le, e, e]
    exact Nat.div_le_div_right (by omega)

/-- C55 on big-endian machines. The full statement is about every machine; on little-endian ones, i.e. in practice, it is
false, see `C55_false`. -/
theorem C55_image16_layer_partial {cv : Cv} (he : cv.bigEndian = true) {m : CostMap K} (hg : m.Geo) (hc : m.Coherent)
    {img : Image} (h16 : img.Is16) (hh : m.size.x = img.height) (hw : m.size.y = img.width) (l : String) :
    ∃ m', addLayerFromImage cv img l m = (.ok true, m') ∧
      (∀ i, i.In m.size → ∃ c, img.costAt cv i = some c ∧ m'.at l i = .ok c) ∧
      (∀ l' i, l' ≠ l → m'.at l' i = m.at l' i) ∧
      m'.layers = (if m.exists l then m.layers else m.layers ++ [l]) ∧ SameGeometry m m' ∧ SameMeta m m' := by
  have hr : img.readable = true := by cases img <;> first | rfl | cases h16
  obtain ⟨m', h1, -, h3, h4, h5, h6, h7⟩ := addLayerFromImage_run cv hg hc hr hh hw l
  refine ⟨m', h1, fun i hi => ?_, h6, h5, h3, h4⟩
  obtain ⟨s, s1, s2⟩ := h7 i hi
  exact ⟨_, sample_costAt16 he h16 s1, s2⟩

/-- C55 on little-endian machines: the cost is that of the gray value with its bytes exchanged. -/
theorem C55_little_endian_swaps {cv : Cv} (he : cv.bigEndian = false) {m : CostMap K} (hg : m.Geo) (hc : m.Coherent)
    {p : Mat UInt16} (hh : m.size.x = p.rows) (hw : m.size.y = p.cols) (l : String) :
    ∃ m', addLayerFromImage cv (.mono16 p) l m = (.ok true, m') ∧
      ∀ i v, p.get? i.x i.y = some v → m'.at l i = .ok (grayCost 65536 (swap16 v).toNat) := by
  obtain ⟨m', h1, -, h3, h4, h5, h6, h7⟩ := addLayerFromImage_run cv hg hc (img := .mono16 p) rfl hh hw l
  refine ⟨m', h1, fun i v hv => ?_⟩
  have hr : p.InRange i.x i.y := by rw [← Mat.get?_isSome_iff, hv]; rfl
  obtain ⟨s, s1, s2⟩ := h7 i (by rw [Idx.In, hh, hw]; exact hr)
  simp only [Image.sample, hv, Res.ofOption, Res.map, Res.bind_ok, Res.ok.injEq] at s1
  rw [s2, ← s1, ← read16_little he]
  rfl

/-- C55 is false on little-endian machines: gray 255 of 65535, nearly black, becomes free space. -/
theorem C55_false : ¬ ∀ (cv : Cv) (m m' : CostMap ℚ) (img : Image) (l : String) (i : Idx) (c : Cost), m.Geo → m.Coherent →
    cv.GrayOk → img.Is16 → addLayerFromImage cv img l m = (.ok true, m') → img.costAt cv i = some c → m'.at l i = .ok c := by
  intro h
  obtain ⟨m', h1, h2⟩ := C55_little_endian_swaps (cv := Demo.cv) rfl Demo.base_geo Demo.base_coherent
    (p := Mat.const 5 4 255) (by decide +kernel) (by decide +kernel) "c"
  have e1 := h2 ⟨0, 0⟩ 255 (by decide +kernel)
  have e2 := h Demo.cv _ m' (.mono16 (Mat.const 5 4 255)) "c" ⟨0, 0⟩ 253 Demo.base_geo Demo.base_coherent Demo.cv_grayOk trivial h1 (by decide +kernel)
  rw [e1] at e2
  revert e2
  decide +kernel

/-- C55 is false also in its weaker part: on little-endian machines darker can be cheaper. -/
theorem C55_not_antitone : ¬ ∀ v w : UInt16, v ≤ w → grayCost 65536 (Demo.cv.read16 w) ≤ grayCost 65536 (Demo.cv.read16 v) := by
  intro h
  have := h 255 256 (by decide)
  revert this
  decide +kernel

example : ∃ m', addLayerFromImage { Demo.cv with bigEndian := true } (.mono16 (Mat.const 5 4 255)) "c" Demo.rotated =
    (.ok true, m') ∧ m'.at "c" ⟨1, 1⟩ = .ok 253 := by
  obtain ⟨m', h1, h2, -⟩ := C55_image16_layer_partial (cv := { Demo.cv with bigEndian := true }) rfl Demo.rotated_geo
    Demo.rotated_coherent (img := .mono16 (Mat.const 5 4 255)) trivial (by decide +kernel) (by decide +kernel) "c"
  refine ⟨m', h1, ?_⟩
  obtain ⟨c, c1, c2⟩ := h2 ⟨1, 1⟩ (by decide +kernel)
  rw [c2, ← Option.some_inj.1 ((show Image.costAt _ (.mono16 (Mat.const 5 4 255)) ⟨1, 1⟩ = some 253 by
    decide +kernel).symm.trans c1)]

end CostMapModel

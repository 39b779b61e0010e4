import Verif.Spec.Image
import Verif.Lemmas.Merge
import Verif.Lemmas.Float
import Verif.Props.Container

/-!
# Lemmas on images
-/

set_option linter.unusedSectionVars false

namespace CostMapModel
open CostMap
variable {K : Type} [Field K] [LinearOrder K] [IsStrictOrderedRing K] [FloorRing K]

/-- A fraction with a power of two below it and a small numerator is a double. -/
theorem toDouble_dyadic (n k : Nat) (hn : n < 2 ^ 53) : toDouble ((n : ℚ) / 2 ^ k) = (n : ℚ) / 2 ^ k := by
  refine binRound_exact (by norm_num) ⟨n, -(k : Int), ?_, ?_⟩
  · rw [Nat.abs_cast]; exact_mod_cast hn
  · rw [zpow_neg, zpow_natCast, div_eq_mul_inv]; push_cast; rfl

/-- The computation in doubles is exact. -/
theorem grayDouble_eq {k g : Nat} (hk : k ≤ 16) (hg : g ≤ 2 ^ k) :
    grayDouble (2 ^ k) g = ((254 * (2 ^ k - g) : Nat) : ℚ) / 2 ^ k := by
  have hk' : 2 ^ k ≤ 2 ^ 16 := Nat.pow_le_pow_right (by norm_num) hk
  have p : (0 : ℚ) < 2 ^ k := by positivity
  unfold grayDouble
  have e1 : toDouble ((g : ℚ) / ((2 ^ k : Nat) : ℚ)) = (g : ℚ) / 2 ^ k := by
    push_cast
    exact toDouble_dyadic g k (by omega)
  have e2 : (1 : ℚ) - (g : ℚ) / 2 ^ k = ((2 ^ k - g : Nat) : ℚ) / 2 ^ k := by
    rw [Nat.cast_sub hg]; push_cast; field_simp
  have e3 : (254 : ℚ) * (((2 ^ k - g : Nat) : ℚ) / 2 ^ k) = ((254 * (2 ^ k - g) : Nat) : ℚ) / 2 ^ k := by
    push_cast; ring
  rw [e1, e2, toDouble_dyadic _ _ (by omega), e3, toDouble_dyadic _ _ (by omega)]

theorem toUChar_gray {k g : Nat} (hk : k ≤ 16) (hg : g < 2 ^ k) :
    toUChar (grayDouble (2 ^ k) g) = .ok (grayCost (2 ^ k) g) := by
  have e : truncToInt (grayDouble (2 ^ k) g) = ((254 * (2 ^ k - g) / 2 ^ k : Nat) : Int) := by
    rw [grayDouble_eq hk hg.le, truncToInt_of_nonneg (by positivity)]
    have := Rat.floor_intCast_div_natCast (254 * (2 ^ k - g) : Nat) (2 ^ k)
    push_cast at this ⊢
    exact this
  have hb : 254 * (2 ^ k - g) / 2 ^ k ≤ 254 := by
    apply Nat.div_le_of_le_mul
    rw [Nat.mul_comm]
    exact Nat.mul_le_mul_right 254 (Nat.sub_le _ _)
  unfold toUChar grayCost
  simp only [e]
  generalize 254 * (2 ^ k - g) / 2 ^ k = q at hb
  rw [if_pos (by omega)]
  rfl

/-- `add(layer)` with a constant. -/
theorem addConst_run {m : CostMap K} (hx : 0 ≤ m.size.x) (hy : 0 ≤ m.size.y) (hc : m.Coherent) (l : String) (v : Cost) :
    ∃ m1, addConst l v m = (.ok (), m1) ∧ m1.Coherent ∧ m1.exists l = true ∧ SameGeometry m m1 ∧ SameMeta m m1 ∧
      m1.layers = (if m.exists l then m.layers else m.layers ++ [l]) ∧
      (∀ i, i.In m.size → m1.at l i = .ok v) ∧ ∀ l', l' ≠ l → m1.data l' = m.data l' := by
  have hcoh := addConst_coherent l v m hc
  unfold addConst add at hcoh ⊢
  have e1 : m.size.x = ((Mat.const m.size.x.toNat m.size.y.toNat v).rows : Int) := by simp [hx]
  have e2 : m.size.y = ((Mat.const m.size.x.toNat m.size.y.toNat v).cols : Int) := by simp [hy]
  rw [if_neg (not_not.2 e1), if_neg (not_not.2 e2)] at hcoh ⊢
  have hat : ∀ m1 : CostMap K, m1.data l = some (Mat.const m.size.x.toNat m.size.y.toNat v) →
      ∀ i, i.In m.size → m1.at l i = .ok v := by
    intro m1 hd i hi
    obtain ⟨i1, i2, i3, i4⟩ := hi
    rw [at_eq hd, Mat.get?_const, if_pos (by omega)]; rfl
  by_cases he : m.exists l = true
  · rw [if_pos he] at hcoh ⊢
    refine ⟨_, rfl, hcoh, by simp [CostMap.exists, setData], ⟨rfl, rfl, rfl, rfl, rfl⟩, ⟨rfl, rfl, rfl⟩,
      by rw [if_pos he]; rfl, hat _ (by simp [setData]), fun l' h => by simp [setData, h]⟩
  · rw [if_neg he] at hcoh ⊢
    refine ⟨_, rfl, hcoh, by simp [CostMap.exists, setData], ⟨rfl, rfl, rfl, rfl, rfl⟩, ⟨rfl, rfl, rfl⟩,
      by rw [if_neg he], hat _ (by simp [setData]), fun l' h => by simp [setData, h]⟩

/-- The cost a sample is turned into. -/
def sampleCost (depth : Nat) : Option Nat → Cost
  | none => NO_INFORMATION
  | some g => grayCost depth g

/-- Samples are below the depth. -/
theorem sample_lt {cv : Cv} {img : Image} {i : Idx} {g : Nat} (h : img.sample cv i = .ok (some g)) :
    g < img.depth ∧ ∃ k ≤ 16, img.depth = 2 ^ k := by
  have r16 : ∀ v, cv.read16 v < 65536 := by
    intro v
    have := v.toNat_lt
    unfold Cv.read16
    split <;> omega
  have p8 : ∃ k ≤ 16, (256 : Nat) = 2 ^ k := ⟨8, by norm_num, by norm_num⟩
  have p16 : ∃ k ≤ 16, (65536 : Nat) = 2 ^ k := ⟨16, le_refl _, by norm_num⟩
  cases img with
  | mono8 p =>
    simp only [Image.sample] at h
    cases hg : p.get? i.x i.y with
    | none => rw [hg] at h; cases h
    | some v => rw [hg] at h; cases h; exact ⟨v.toNat_lt, p8⟩
  | bgr8 p =>
    simp only [Image.sample] at h
    cases hg : p.get? i.x i.y with
    | none => rw [hg] at h; cases h
    | some v => rw [hg] at h; cases h; exact ⟨UInt8.toNat_lt _, p8⟩
  | bgra8 p =>
    simp only [Image.sample] at h
    cases hg : p.get? i.x i.y with
    | none => rw [hg] at h; cases h
    | some v =>
      rw [hg] at h
      simp only [Res.ofOption, Res.map, Res.bind_ok, Res.ok.injEq] at h
      split at h
      · cases h
      · cases h; exact ⟨UInt8.toNat_lt _, p8⟩
  | mono16 p =>
    simp only [Image.sample] at h
    cases hg : p.get? i.x i.y with
    | none => rw [hg] at h; cases h
    | some v => rw [hg] at h; cases h; exact ⟨r16 _, p16⟩
  | bgr16 p =>
    simp only [Image.sample] at h
    cases hg : p.get? i.x i.y with
    | none => rw [hg] at h; cases h
    | some v => rw [hg] at h; cases h; exact ⟨r16 _, p16⟩
  | bgra16 p =>
    simp only [Image.sample] at h
    cases hg : p.get? i.x i.y with
    | none => rw [hg] at h; cases h
    | some v =>
      rw [hg] at h
      simp only [Res.ofOption, Res.map, Res.bind_ok, Res.ok.injEq] at h
      split at h
      · cases h
      · cases h; exact ⟨r16 _, p16⟩
  | other h' w => cases h
  | malformed h' w => cases h

/-- Every cell of a map of the image's size has a sample. -/
theorem sample_ok (cv : Cv) {img : Image} (hr : img.readable = true) {i : Idx} (h1 : 0 ≤ i.x) (h2 : i.x < img.height)
    (h3 : 0 ≤ i.y) (h4 : i.y < img.width) : ∃ s, img.sample cv i = .ok s := by
  cases img with
  | mono8 p =>
    obtain ⟨v, hv⟩ := p.exists_get? (i := i.x) (j := i.y) ⟨h1, h2, h3, h4⟩
    exact ⟨_, by simp only [Image.sample, hv]; rfl⟩
  | bgr8 p =>
    obtain ⟨v, hv⟩ := p.exists_get? (i := i.x) (j := i.y) ⟨h1, h2, h3, h4⟩
    exact ⟨_, by simp only [Image.sample, hv]; rfl⟩
  | bgra8 p =>
    obtain ⟨v, hv⟩ := p.exists_get? (i := i.x) (j := i.y) ⟨h1, h2, h3, h4⟩
    exact ⟨_, by simp only [Image.sample, hv]; rfl⟩
  | mono16 p =>
    obtain ⟨v, hv⟩ := p.exists_get? (i := i.x) (j := i.y) ⟨h1, h2, h3, h4⟩
    exact ⟨_, by simp only [Image.sample, hv]; rfl⟩
  | bgr16 p =>
    obtain ⟨v, hv⟩ := p.exists_get? (i := i.x) (j := i.y) ⟨h1, h2, h3, h4⟩
    exact ⟨_, by simp only [Image.sample, hv]; rfl⟩
  | bgra16 p =>
    obtain ⟨v, hv⟩ := p.exists_get? (i := i.x) (j := i.y) ⟨h1, h2, h3, h4⟩
    exact ⟨_, by simp only [Image.sample, hv]; rfl⟩
  | other h' w => cases hr
  | malformed h' w => cases hr

/-- The run of `addLayerFromImage` on an image of the size of the map. -/
theorem addLayerFromImage_run (cv : Cv) {m : CostMap K} (hg : m.Geo) (hc : m.Coherent) {img : Image}
    (hr : img.readable = true) (hh : m.size.x = img.height) (hw : m.size.y = img.width) (l : String) :
    ∃ m', addLayerFromImage cv img l m = (.ok true, m') ∧ m'.Coherent ∧ SameGeometry m m' ∧ SameMeta m m' ∧
      m'.layers = (if m.exists l then m.layers else m.layers ++ [l]) ∧
      (∀ l' i, l' ≠ l → m'.at l' i = m.at l' i) ∧
      ∀ i, i.In m.size → ∃ s, img.sample cv i = .ok s ∧ m'.at l i = .ok (sampleCost img.depth s) := by
  obtain ⟨m1, e1, c1, x1, sg, sm, ly, un, ot⟩ := addConst_run hg.size_x.le hg.size_y.le hc l NO_INFORMATION
  have hs1 : m1.startIndex.In m1.size := by rw [sg.startIndex, sg.size]; exact hg.start
  let new : String → Idx → Res Cost := fun l' i =>
    if l' = l then (img.sample cv i).map (sampleCost img.depth) else m1.at l' i
  obtain ⟨m', e2, sh, out, hat⟩ := forEach_cells (new := new) (body := imageCell cv img l) (m₀ := m1)
    (cells_nodup hs1) (by
      intro i hi s hsh heq
      have hi := (mem_cells hs1).1 hi
      have hi' := hi
      rw [sg.size] at hi'
      obtain ⟨i1, i2, i3, i4⟩ := hi'
      obtain ⟨v, hv⟩ := sample_ok cv hr (i := i) i1 (hh ▸ i2) i3 (hw ▸ i4)
      unfold imageCell
      rw [hv, Act.bind_ok (show Act.lift (Res.ok v) s = (.ok v, s) from rfl)]
      cases v with
      | none =>
        refine ⟨s, rfl, SameShape.refl s, fun _ _ _ => rfl, fun l' => ?_⟩
        simp only [new]
        by_cases h : l' = l
        · subst h
          rw [if_pos rfl, hv, heq, un i ⟨i1, i2, i3, i4⟩]; rfl
        · rw [if_neg h, heq]
      | some g =>
        obtain ⟨g1, k, k1, k2⟩ := sample_lt hv
        have ht : toUChar (grayDouble img.depth g) = .ok (grayCost img.depth g) := by
          rw [k2] at g1 ⊢; exact toUChar_gray k1 g1
        simp only
        rw [ht, Act.bind_ok (show Act.lift (Res.ok (grayCost img.depth g)) s = (.ok _, s) from rfl)]
        have cs := hsh.coherent c1
        have xs : s.exists l = true := by
          rw [CostMap.exists, hsh.isSome]; exact x1
        obtain ⟨s', f1, f2, f3, -⟩ := setAt_spec cs xs (i := i) (by rw [hsh.geo.size]; exact hi) (grayCost img.depth g)
        refine ⟨s', f1, f2, fun l' j hj => ?_, fun l' => ?_⟩
        · rw [f3, if_neg (fun h => hj h.2)]
        · rw [f3]
          simp only [new]
          by_cases h : l' = l
          · subst h
            simp only [and_self, if_true, hv]
            rfl
          · rw [if_neg (fun h' => h h'.1), if_neg h, heq])
    (SameShape.refl m1) (fun _ _ _ => rfl)
  have geo : SameGeometry m m' := ⟨sh.geo.length.trans sg.length, sh.geo.resolution.trans sg.resolution,
    sh.geo.position.trans sg.position, sh.geo.size.trans sg.size, sh.geo.startIndex.trans sg.startIndex⟩
  have info : SameMeta m m' := ⟨sh.info.frameId.trans sm.frameId, sh.info.timestamp.trans sm.timestamp,
    sh.info.basicLayers.trans sm.basicLayers⟩
  refine ⟨m', ?_, sh.coherent c1, geo, info, by rw [sh.layers, ly], ?_, ?_⟩
  · unfold addLayerFromImage
    rw [if_neg (by simp [hr]), Act.bind_ok e1]
    rw [if_neg (by rw [sg.size]; push Not; exact ⟨hh, hw⟩)]
    have : forCells (imageCell cv img l) m1 = (.ok (), m') := by rw [forCells_eq hs1, e2]
    rw [Act.bind_ok this]
    rfl
  · intro l' i hl
    by_cases hi : i ∈ m1.cells
    · rw [hat l' i hi]
      simp only [new]
      rw [if_neg hl, at_congr (ot l' hl)]
    · rw [out l' i hi, at_congr (ot l' hl)]
  · intro i hi
    obtain ⟨i1, i2, i3, i4⟩ := hi
    obtain ⟨s, hs⟩ := sample_ok cv hr (i := i) i1 (hh ▸ i2) i3 (hw ▸ i4)
    refine ⟨s, hs, ?_⟩
    rw [hat l i ((mem_cells hs1).2 (by rw [sg.size]; exact ⟨i1, i2, i3, i4⟩))]
    simp only [new, if_true, hs]
    rfl

end CostMapModel

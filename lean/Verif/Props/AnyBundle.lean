import Verif.Lemmas.AnyBundle
import Verif.Props.Ieee
import Verif.Props.RoundedConversions

/-!
# C97: any file as an image bundle
-/

set_option linter.unusedSectionVars false

namespace CostMapModel
open CostMap

section
variable {K : Type} [Field K] [LinearOrder K] [IsStrictOrderedRing K] [FloorRing K] {F Ff : Fmt K}

theorem loadBundle_thrown {rd : Reader K} {cv : Cv} {files : AnyFiles} {x : Exn} (h : rd.readDoc files.yaml = .thrown x)
    (e : CostMap (Dbl K)) : loadBundle F Ff rd cv files e = (.thrown x, e) := by
  unfold loadBundle
  rw [h]
  rfl

theorem loadBundle_geometry {rd : Reader K} {cv : Cv} {files : AnyFiles} {b : BundleInfo (Dbl K)} (hb : rd.readDoc files.yaml = .ok b)
    {e : CostMap (Dbl K)} {r : Res Unit} (hr : ∀ u, r ≠ .ok u)
    (h : setGeometryD F ⟨.mul Ff b.resolution (.round Ff (b.cellsX : K)), .mul Ff b.resolution (.round Ff (b.cellsY : K))⟩
      b.resolution b.centre e = (r, e)) : loadBundle F Ff rd cv files e = (r, e) := by
  unfold loadBundle
  rw [Act.bind_ok (show Act.lift (rd.readDoc files.yaml) e = (.ok b, e) by rw [hb]; rfl)]
  unfold Act.bind
  rw [h]
  cases r with
  | ok u => exact absurd rfl (hr u)
  | _ => rfl

/-- A description has metadata. -/
theorem readDoc_says {rd : Reader K} {y : Yaml} {d : Description K} (h : rd.Says y d) :
    ∃ ps, rd.readDoc (.parsed y) = .ok ⟨d.frame, d.centre, d.resolution, d.cellsX, d.cellsY, ps⟩ ∧
      readLayers (d.layers.map fun p => ⟨some p.1, some p.2⟩) [] = .ok ps := by
  obtain ⟨ps, p1, -, -⟩ := readLayers_any d.layers (acc := []) List.Pairwise.nil
  exact ⟨ps, Reader.readTree_ok.2 ⟨d.layers, h, p1⟩, p1⟩

/-- C97. Whatever is in the file, loading it into a map ends in one of four ways: with an exception, exactly when the file does not say
what a map needs; by aborting, exactly when it says a resolution that is not positive or a number of cells that is 0; with undefined
behaviour; or with the map the file and its images describe. In the first three the map is left as it was. -/
theorem C97_outcomes (hF : F.Double) (hf : Ff.Single) (rd : Reader K) (cv : Cv) (files : AnyFiles) {e : CostMap (Dbl K)}
    (he : e.Coherent) :
    ((loadBundle F Ff rd cv files e = (.thrown .logicError, e) ∨ loadBundle F Ff rd cv files e = (.thrown .runtimeError, e)) ∧
      ¬ ∃ y d, files.yaml = .parsed y ∧ rd.Says y d) ∨
    ∃ y d, files.yaml = .parsed y ∧ rd.Says y d ∧
      ((loadBundle F Ff rd cv files e = (.assertFail, e) ∧ (Dbl.lt (.fin 0) d.resolution = false ∨ d.cellsX = 0 ∨ d.cellsY = 0)) ∨
       (Dbl.lt (.fin 0) d.resolution = true ∧ 0 < d.cellsX ∧ 0 < d.cellsY ∧
        (loadBundle F Ff rd cv files e = (.ub, e) ∨
         ∃ m', loadBundle F Ff rd cv files e = (.ok (), m') ∧
          Loaded cv (fun n => (files.images n).map (·.as8 cv)) d e m'))) := by
  have bad : ∀ {x : Exn}, rd.readDoc files.yaml = .thrown x → ¬ ∃ y d, files.yaml = .parsed y ∧ rd.Says y d := by
    rintro x hx ⟨y, d, hy, hs⟩
    obtain ⟨ps, h, -⟩ := readDoc_says hs
    rw [← hy, hx] at h
    cases h
  rcases hy : files.yaml with _ | _ | y
  · left
    have : rd.readDoc files.yaml = .thrown .runtimeError := by rw [hy]; rfl
    exact ⟨.inr (loadBundle_thrown this e), hy ▸ bad this⟩
  · left
    have : rd.readDoc files.yaml = .thrown .logicError := by rw [hy]; rfl
    exact ⟨.inl (loadBundle_thrown this e), hy ▸ bad this⟩
  · rcases Reader.readTree_cases (rd := rd) y with ⟨b, hb⟩ | h | h
    · right
      have hb' : rd.readDoc files.yaml = .ok b := by rw [hy]; exact hb
      obtain ⟨ls, hs, hl⟩ := Reader.readTree_ok.1 hb
      refine ⟨y, _, rfl, hs, ?_⟩
      by_cases hbad : Dbl.lt (.fin 0) b.resolution = false ∨ b.cellsX = 0 ∨ b.cellsY = 0
      · exact .inl ⟨loadBundle_geometry hb' (by simp) (fileGeometry_abort hf hbad b.centre e), hbad⟩
      · right
        push Not at hbad
        obtain ⟨hr, hx, hy⟩ := hbad
        have hr : Dbl.lt (.fin 0) b.resolution = true := by simpa using hr
        refine ⟨hr, Nat.pos_of_ne_zero hx, Nat.pos_of_ne_zero hy, ?_⟩
        rcases fileGeometry_cases hF hf hr (Nat.pos_of_ne_zero hx) (Nat.pos_of_ne_zero hy) b.centre he with
          h | ⟨m, r, h1, h2, h3, h4, h5, h6, h7, h8, h9, h10, h11, h12, h13⟩
        · exact .inl (loadBundle_geometry hb' (by simp) h)
        · obtain ⟨m', g1, -, -, g2⟩ := loadBundle_run (cv := cv) hb' hl h1 h2 h3 h4 h7 h8 h9 h11 h12 h13
          exact .inr ⟨m', g1, g2⟩
    · left
      have : rd.readDoc files.yaml = .thrown .logicError := by rw [hy]; exact h
      exact ⟨.inl (loadBundle_thrown this e), hy ▸ bad this⟩
    · left
      have : rd.readDoc files.yaml = .thrown .runtimeError := by rw [hy]; exact h
      exact ⟨.inr (loadBundle_thrown this e), hy ▸ bad this⟩

/-- C97. A file that cannot be parsed, or whose top level is not text and lacks one of the six keys, gives a `std::logic_error`. -/
theorem C97_missing_key (rd : Reader K) (cv : Cv) (files : AnyFiles) (e : CostMap (Dbl K))
    (h : files.yaml = .unparsable ∨ ∃ y, files.yaml = .parsed y ∧ (∀ s, y ≠ .scalar s) ∧ ∃ k ∈ bundleKeys, ∀ v, ¬ y.Field k v) :
    loadBundle F Ff rd cv files e = (.thrown .logicError, e) := by
  refine loadBundle_thrown ?_ e
  rcases h with h | ⟨y, h, hs, hk⟩
  · rw [h]; rfl
  · rw [h]
    show rd.readTree y = _
    unfold Reader.readTree
    rw [Yaml.require_missing hs (ks := ["frame_id", "centre_x", "centre_y", "resolution", "number_of_cells_x", "number_of_cells_y"]) hk]
    rfl

/-- C97. A file that does not exist, whose top level is text, or in which one of the six values does not read as what it should be,
gives a `std::runtime_error`. The full statement has a `std::logic_error` here: see `C97_false_logic_error`. -/
theorem C97_bad_value_partial (rd : Reader K) (cv : Cv) (files : AnyFiles) (e : CostMap (Dbl K))
    (h : files.yaml = .missing ∨ (∃ s, files.yaml = .parsed (.scalar s)) ∨ ∃ y, files.yaml = .parsed y ∧
      (∀ k ∈ bundleKeys, ∃ v, y.Field k v) ∧
      ((∃ v, y.Field "frame_id" v ∧ ∀ t, ¬ rd.IsText v t) ∨
       (∃ v, y.Field "resolution" v ∧ ∀ s, v = .scalar s → rd.float s = none) ∨
       (∃ k v, (k = "number_of_cells_x" ∨ k = "number_of_cells_y") ∧ y.Field k v ∧ ∀ s, v = .scalar s → rd.uint s = none) ∨
       ∃ k v, (k = "centre_x" ∨ k = "centre_y") ∧ y.Field k v ∧ ∀ s, v = .scalar s → rd.double s = none)) :
    loadBundle F Ff rd cv files e = (.thrown .runtimeError, e) := by
  refine loadBundle_thrown ?_ e
  rcases h with h | ⟨s, h⟩ | ⟨y, h, hk, hbad⟩
  · rw [h]; rfl
  · rw [h]; rfl
  rw [h]
  show rd.readTree y = _
  have bad_text : ∀ {v : Yaml}, (∀ t, ¬ rd.IsText v t) → rd.text (some v) = .thrown .runtimeError := by
    intro v hv
    rcases Reader.text_cases (rd := rd) (some v) with ⟨s, hs⟩ | hs
    · exact absurd (Reader.text_ok.1 hs) (hv s)
    · exact hs
  have bad_num : ∀ {α : Type} {c : String → Option α} {v : Yaml}, (∀ s, v = .scalar s → c s = none) →
      Reader.number c (some v) = .thrown .runtimeError := by
    intro α c v hv
    rcases Reader.number_cases c (some v) with ⟨x, hx⟩ | hs
    · obtain ⟨s, rfl, hs⟩ := Reader.number_ok.1 hx
      rw [hv s rfl] at hs
      cases hs
    · exact hs
  have get : ∀ k ∈ bundleKeys, ∃ v, y.get k = .ok (some v) ∧ y.Field k v := fun k hm => by
    obtain ⟨v, hv⟩ := hk k hm
    exact ⟨v, Yaml.get_some.2 hv, hv⟩
  obtain ⟨v1, e1, f1⟩ := get "frame_id" (by simp [bundleKeys])
  obtain ⟨v2, e2, f2⟩ := get "resolution" (by simp [bundleKeys])
  obtain ⟨v3, e3, f3⟩ := get "number_of_cells_x" (by simp [bundleKeys])
  obtain ⟨v4, e4, f4⟩ := get "number_of_cells_y" (by simp [bundleKeys])
  obtain ⟨v5, e5, f5⟩ := get "centre_x" (by simp [bundleKeys])
  obtain ⟨v6, e6, f6⟩ := get "centre_y" (by simp [bundleKeys])
  have hreq : y.require ["frame_id", "centre_x", "centre_y", "resolution", "number_of_cells_x", "number_of_cells_y"] = .ok () :=
    Yaml.require_ok.2 hk
  unfold Reader.readTree
  rw [hreq, e1, e2, e3, e4, e5, e6]
  simp only [Res.bind_ok]
  rcases Reader.text_cases (rd := rd) (some v1) with ⟨t1, g1⟩ | g1 <;> rw [g1]
  swap; · rfl
  rw [Res.bind_ok]
  rcases Reader.number_cases rd.float (some v2) with ⟨t2, g2⟩ | g2 <;> rw [g2]
  swap; · rfl
  rw [Res.bind_ok]
  rcases Reader.number_cases rd.uint (some v3) with ⟨t3, g3⟩ | g3 <;> rw [g3]
  swap; · rfl
  rw [Res.bind_ok]
  rcases Reader.number_cases rd.uint (some v4) with ⟨t4, g4⟩ | g4 <;> rw [g4]
  swap; · rfl
  rw [Res.bind_ok]
  rcases Reader.number_cases rd.double (some v5) with ⟨t5, g5⟩ | g5 <;> rw [g5]
  swap; · rfl
  rw [Res.bind_ok]
  rcases Reader.number_cases rd.double (some v6) with ⟨t6, g6⟩ | g6 <;> rw [g6]
  swap; · rfl
  exfalso
  rcases hbad with ⟨v, hv, hn⟩ | ⟨v, hv, hn⟩ | ⟨k, v, rfl | rfl, hv, hn⟩ | ⟨k, v, rfl | rfl, hv, hn⟩
  · cases Yaml.field_unique f1 hv; rw [bad_text hn] at g1; cases g1
  · cases Yaml.field_unique f2 hv; rw [bad_num hn] at g2; cases g2
  · cases Yaml.field_unique f3 hv; rw [bad_num hn] at g3; cases g3
  · cases Yaml.field_unique f4 hv; rw [bad_num hn] at g4; cases g4
  · cases Yaml.field_unique f5 hv; rw [bad_num hn] at g5; cases g5
  · cases Yaml.field_unique f6 hv; rw [bad_num hn] at g6; cases g6

/-- C97. A layer without name or without image gives a `std::logic_error`, whatever comes after it. -/
theorem C97_bad_layer {rd : Reader K} (cv : Cv) {files : AnyFiles} (e : CostMap (Dbl K)) {y : Yaml} {d : Description K}
    (hy : files.yaml = .parsed y) (hs : rd.SaysKeys y d) {good rest : List Yaml} {bad : Yaml}
    (hl : y.Field "layers" (.seq (good ++ bad :: rest))) (hg : ∀ v ∈ good, ∃ p, rd.IsLayer v p) (hb : ∀ s, bad ≠ .scalar s)
    (hk : (∀ v, ¬ bad.Field "layer_name" v) ∨ ∀ v, ¬ bad.Field "layer_data" v) :
    loadBundle F Ff rd cv files e = (.thrown .logicError, e) := by
  refine loadBundle_thrown ?_ e
  rw [hy]
  show rd.readTree y = _
  rw [Reader.readTree_keys hs, Yaml.get_some.2 hl, Res.bind_ok]
  have hbad : rd.item (some bad) = .thrown .logicError := by
    simp only [Reader.item]
    rcases Yaml.get_cases bad "layer_name" with ⟨n, e, hf⟩ | ⟨h, ⟨e, -⟩ | ⟨-, s, e⟩⟩
    · rw [e]
      simp only [Res.bind_ok, Option.isNone_some, Bool.false_eq_true, if_false]
      rcases Yaml.get_cases bad "layer_data" with ⟨n', e', hf'⟩ | ⟨h, ⟨e', -⟩ | ⟨-, s, e'⟩⟩
      · exact absurd hk (not_or.2 ⟨fun h => h _ hf, fun h => h _ hf'⟩)
      · rw [e']; rfl
      · exact absurd e' (hb s)
    · rw [e]; rfl
    · exact absurd e (hb s)
  have loop : ∀ (g : List Yaml) (acc : List (String × String)), (∀ v ∈ g, ∃ p, rd.IsLayer v p) →
      rd.readItems ((g ++ bad :: rest).map some) acc = .thrown .logicError := by
    intro g
    induction g with
    | nil => intro acc _; simp only [List.nil_append, List.map_cons, Reader.readItems]; rw [hbad]; rfl
    | cons v g ih =>
      intro acc h
      obtain ⟨p, hp⟩ := h v (by simp)
      simp only [List.cons_append, List.map_cons, Reader.readItems]
      rw [Reader.item_ok.2 ⟨v, rfl, hp⟩, Res.bind_ok]
      exact ih _ fun v hv => h v (by simp [hv])
  have := loop good [] hg
  simp only [Reader.items]
  rw [this]
  rfl

/-- C97. A resolution of infinity has undefined behaviour. -/
theorem C97_infinite_resolution (hf : Ff.Single) {rd : Reader K} (cv : Cv) {files : AnyFiles} (e : CostMap (Dbl K)) {y : Yaml}
    {d : Description K} (hy : files.yaml = .parsed y) (hs : rd.Says y d) (hr : d.resolution = .pinf) (hx : 0 < d.cellsX)
    (hy' : 0 < d.cellsY) : loadBundle F Ff rd cv files e = (.ub, e) := by
  obtain ⟨ps, hb, -⟩ := readDoc_says hs
  rw [← hy] at hb
  refine loadBundle_geometry hb (by simp) ?_
  have inf : ∀ n : Nat, 0 < n → Dbl.mul Ff d.resolution (.round Ff (n : K)) = .pinf := by
    intro n hn
    rcases fileLength hf (res := d.resolution) (by rw [hr]; rfl) hn with h | ⟨r, h, -⟩
    · exact h
    · rw [hr] at h; cases h
  simp only
  exact C90_setGeometry_infinite e _ _ _ (by simp only; rw [inf _ hx]; rfl) (by simp only; rw [inf _ hy']; rfl) (by rw [hr]; rfl)
    (.inl (inf _ hx))

/-- C97. A file that says a positive resolution and up to 2^23 cells a side is loaded: the map has what it says, its number of cells
included. The length is the product of both in `double`; the centre may be anything, even NaN. The full statement has no bounds on the
number of cells and the resolution: see `C97_false_undefined`. -/
theorem C97_load_partial (hF : F.Double) (hf : Ff.Single) (hi : ∀ n : Nat, n < 2 ^ 23 → Ff.rd n = n) {rd : Reader K} (cv : Cv)
    {files : AnyFiles} {y : Yaml} {d : Description K} (hy : files.yaml = .parsed y) (hs : rd.Says y d) {r : K}
    (hr : d.resolution = .fin r) (r0 : 0 < r) (hx : 0 < d.cellsX) (hx' : d.cellsX < 2 ^ 23) (hy' : 0 < d.cellsY)
    (hy'' : d.cellsY < 2 ^ 23) (tx : Ff.rd (r * d.cellsX) < Ff.top) (ty : Ff.rd (r * d.cellsY) < Ff.top) {e : CostMap (Dbl K)}
    (he : e.Coherent) :
    ∃ m', loadBundle F Ff rd cv files e = (.ok (), m') ∧ m'.size = ⟨d.cellsX, d.cellsY⟩ ∧
      m'.length = ⟨.round F ((d.cellsX : K) * r), .round F ((d.cellsY : K) * r)⟩ ∧
      Loaded cv (fun n => (files.images n).map (·.as8 cv)) d e m' := by
  obtain ⟨ps, hb, hl⟩ := readDoc_says hs
  rw [← hy] at hb
  have ht : 0 < Ff.top := lt_of_lt_of_le (by positivity) hf.top
  have cells : ∀ n : Nat, 0 < n → n < 2 ^ 23 → Ff.rd (r * n) < Ff.top →
      Dbl.lt (.fin 0) (Dbl.mul Ff d.resolution (.round Ff (n : K))) = true ∧
      Dbl.roundToInt (.div F (.mul Ff d.resolution (.round Ff (n : K))) d.resolution) = some (n : Int) := by
    intro n h0 h1 h2
    have n0 : (0 : K) < n := by exact_mod_cast h0
    have n1 : (n : K) < 2 ^ 64 := by
      have : n < 2 ^ 64 := h1.trans (by norm_num)
      exact_mod_cast this
    obtain ⟨c1, c2⟩ := cells_of_float hF.rd hf.rd r0 (n := n) (by omega) (by omega)
    rw [Int.cast_natCast] at c1 c2
    have e1 : Dbl.round Ff (n : K) = .fin n := by
      rw [Dbl.round_fin (by rw [hi n h1, abs_of_pos n0]; exact lt_of_lt_of_le n1 hf.top), hi n h1]
    have e2 : Dbl.mul Ff d.resolution (.round Ff (n : K)) = .fin (Ff.rd (r * n)) := by
      rw [hr, e1]
      exact Dbl.round_fin (by rw [abs_of_pos c1]; exact h2)
    rw [e2, hr, Dbl.div_fin r0.ne', roundToInt_round hF, c2]
    refine ⟨by simpa [Dbl.lt] using c1, ?_⟩
    unfold i32
    rw [if_pos (by constructor <;> omega)]
  obtain ⟨a1, a2⟩ := cells _ hx hx' tx
  obtain ⟨b1, b2⟩ := cells _ hy' hy'' ty
  obtain ⟨m, h1, h2, h3, h4, h5, h6, h7, h8, h9, h10⟩ := setGeometryD_ok (F := F) (pos := d.centre)
    (len := ⟨.mul Ff d.resolution (.round Ff (d.cellsX : K)), .mul Ff d.resolution (.round Ff (d.cellsY : K))⟩) he a1 b1
    (by rw [hr]; simpa [Dbl.lt] using r0) a2 b2 (by omega) (by omega)
  obtain ⟨m', g1, g2, g3, g4⟩ := loadBundle_run (cv := cv) hb hl h1 h2 (by rw [h3]; simpa using hx) (by rw [h3]; simpa using hy') h4 h5
    h6 h8 h9 h10
  refine ⟨m', g1, g2.trans h3, ?_, g4⟩
  rw [g3, h7, hr]
  simp [Dbl.mul, Dbl.ofInt]

end

/-! ## Images of 16 bits per channel -/

/-- C97. An image of 8 bits per channel is what its file says; one gray channel of 16 bits is read as bytes: the cell `(i, j)` shows one
byte of the pixel `(i, j / 2)`. The full statement has the pixel `(i, j)`: see `C97_false_16_bits`. -/
theorem C97_gray_partial (cv : Cv) (p : Mat UInt16) (i : Nat) (j : Nat) (hi : i < p.rows) (hj : j < p.cols) :
    (FileImage.toImage (some ((AnyFile.gray16 p).as8 cv))).height = p.rows ∧
    (FileImage.toImage (some ((AnyFile.gray16 p).as8 cv))).width = p.cols ∧
    ∃ v, p.get? i (j / 2 : Nat) = some v ∧
      (FileImage.toImage (some ((AnyFile.gray16 p).as8 cv))).costAt cv ⟨i, j⟩ =
        some (grayCost 256 (if (j % 2 = 0) ↔ (cv.bigEndian = true) then v.toNat / 256 else v.toNat % 256)) := by
  refine ⟨rfl, rfl, ?_⟩
  have hr : p.InRange i (j / 2 : Nat) := ⟨by omega, by omega, by omega, by omega⟩
  obtain ⟨v, hv⟩ := Option.isSome_iff_exists.1 ((Mat.get?_isSome_iff p i (j / 2 : Nat)).2 hr)
  refine ⟨v, hv, ?_⟩
  simp only [AnyFile.as8, FileImage.toImage, Image.costAt]
  rw [Mat.get?_ofFn, if_pos ⟨by omega, by omega, by omega, by omega⟩, Option.map_some]
  unfold Cv.rowByte AnyFile.channel1 Cv.byteOf
  have e : ((((j : Int).toNat / 2 / 1 : Nat)) : Int) = ((j / 2 : Nat) : Int) := by simp
  rw [e, hv, Option.getD_some, Int.toNat_natCast]
  have vb := v.toNat_lt
  congr 2
  rw [UInt8.toNat_ofNat']
  split
  · exact Nat.mod_eq_of_lt (by omega)
  · exact Nat.mod_eq_of_lt (by omega)

theorem Mat.ofFn_congr {α : Type} {r c : Nat} {f g : Int → Int → α}
    (h : ∀ i j : Nat, i < r → j < c → f i j = g i j) : Mat.ofFn r c f = Mat.ofFn r c g := by
  unfold Mat.ofFn
  congr 1
  apply List.map_congr_left
  intro k hk
  have hk := List.mem_range.1 hk
  have hr : 0 < r := Nat.pos_of_ne_zero (by rintro rfl; simp at hk)
  exact h _ _ (Nat.mod_lt _ hr) (Nat.div_lt_of_lt_mul hk)

/-- The two images have the same size and the same left half; the pixel in the middle counts as left. -/
structure SameLeftHalf {α : Type} (p q : Mat α) : Prop where
  rows : p.rows = q.rows
  cols : p.cols = q.cols
  left : ∀ i j : Nat, 2 * j < p.cols → p.get? i j = q.get? i j

/-- C97. The right half of an image file with 16 bits per channel is not looked at: bundles whose images of that kind differ only there
are loaded alike. -/
theorem C97_right_half_ignored {K : Type} [Field K] [LinearOrder K] [IsStrictOrderedRing K] [FloorRing K] (F Ff : Fmt K) (rd : Reader K)
    (cv : Cv) {f g : AnyFiles} (hy : f.yaml = g.yaml)
    (hi : ∀ n, f.images n = g.images n ∨
      (∃ p q, f.images n = some (.gray16 p) ∧ g.images n = some (.gray16 q) ∧ SameLeftHalf p q) ∨
      (∃ p q, f.images n = some (.bgr16 p) ∧ g.images n = some (.bgr16 q) ∧ SameLeftHalf p q) ∨
      ∃ p q, f.images n = some (.bgra16 p) ∧ g.images n = some (.bgra16 q) ∧ SameLeftHalf p q) (e : CostMap (Dbl K)) :
    loadBundle F Ff rd cv f e = loadBundle F Ff rd cv g e := by
  have h8 : (f.as8 cv : Files (Dbl K)) = g.as8 cv := by
    unfold AnyFiles.as8
    congr 1
    funext n
    rcases hi n with h | ⟨p, q, h1, h2, h⟩ | ⟨p, q, h1, h2, h⟩ | ⟨p, q, h1, h2, h⟩
    · rw [h]
    · rw [h1, h2]
      simp only [Option.map_some, AnyFile.as8]
      rw [← h.rows, ← h.cols]
      congr 2
      apply Mat.ofFn_congr
      intro i j hi hj
      unfold Cv.rowByte AnyFile.channel1
      rw [h.left _ _ (by rw [Int.toNat_natCast]; omega)]
    · rw [h1, h2]
      simp only [Option.map_some, AnyFile.as8]
      rw [← h.rows, ← h.cols]
      congr 2
      apply Mat.ofFn_congr
      intro i j hi hj
      unfold Cv.rowByte AnyFile.channel3
      rw [h.left _ _ (by rw [Int.toNat_natCast]; omega), h.left _ _ (by rw [Int.toNat_natCast]; omega),
        h.left _ _ (by rw [Int.toNat_natCast]; omega)]
    · rw [h1, h2]
      simp only [Option.map_some, AnyFile.as8]
      rw [← h.rows, ← h.cols]
      congr 2
      apply Mat.ofFn_congr
      intro i j hi hj
      unfold Cv.rowByte AnyFile.channel4
      rw [h.left _ _ (by rw [Int.toNat_natCast]; omega), h.left _ _ (by rw [Int.toNat_natCast]; omega),
        h.left _ _ (by rw [Int.toNat_natCast]; omega), h.left _ _ (by rw [Int.toNat_natCast]; omega)]
  unfold loadBundle
  rw [hy, h8]

/-! ## What the documentation promises is false -/

/-- Binary32. -/
def binary32 : Fmt ℚ := ⟨toFloat, 2 ^ 128⟩

theorem binary32_single : binary32.Single := ⟨close24_toFloat, by unfold binary32; decide +kernel, by unfold binary32; decide +kernel⟩

namespace Demo

/-- How a few texts read. -/
def reader : Reader ℚ where
  null := none
  float := fun s => if s = "0.5" then some (.fin (1 / 2)) else if s = "-0.5" then some (.fin (-1 / 2))
    else if s = ".inf" then some .pinf else if s = ".nan" then some .nan else none
  double := fun s => if s = "0.5" then some (.fin (1 / 2)) else if s = ".nan" then some .nan else none
  uint := fun s => if s = "0" then some 0 else if s = "1" then some 1 else if s = "2" then some 2
    else if s = "3000000000" then some 3000000000 else none

/-- A bundle with the given values and the given layers. -/
def tree (centre res nx ny : String) (layers : Yaml) : Yaml := .map
  [("frame_id", .scalar "map"), ("centre_x", .scalar centre), ("centre_y", .scalar "0.5"), ("resolution", .scalar res),
   ("number_of_cells_x", .scalar nx), ("number_of_cells_y", .scalar ny), ("layers", layers)]

/-- A list with one layer, and the same in a mapping. -/
def oneLayer : Yaml := .map [("layer_data", .scalar "a.png"), ("layer_name", .scalar "a")]

/-- What `tree` says. -/
theorem tree_says {centre res nx ny : String} {layers : Yaml} {c r : Dbl ℚ} {x y : Nat} {vs : List Yaml} {ls : List (String × String)}
    (hc : reader.double centre = some c) (hr : reader.float res = some r) (hx : reader.uint nx = some x)
    (hy : reader.uint ny = some y) (hl : reader.IsList layers vs) (hv : List.Forall₂ reader.IsLayer vs ls) :
    reader.Says (tree centre res nx ny layers) ⟨"map", ⟨c, .fin (1 / 2)⟩, r, x, y, ls⟩ where
  frame := ⟨_, ⟨[], _, rfl, by simp⟩, .inl rfl⟩
  centre_x := ⟨centre, ⟨[_], _, rfl, by simp⟩, hc⟩
  centre_y := ⟨"0.5", ⟨[_, _], _, rfl, by simp⟩, by simp [reader]⟩
  resolution := ⟨res, ⟨[_, _, _], _, rfl, by simp⟩, hr⟩
  cells_x := ⟨nx, ⟨[_, _, _, _], _, rfl, by simp⟩, hx⟩
  cells_y := ⟨ny, ⟨[_, _, _, _, _], _, rfl, by simp⟩, hy⟩
  layers := .inr ⟨layers, vs, ⟨[_, _, _, _, _, _], _, rfl, by simp⟩, hl, hv⟩

theorem oneLayer_isLayer : reader.IsLayer oneLayer ("a", "a.png") :=
  ⟨_, _, ⟨[_], _, rfl, by simp⟩, .inl rfl, ⟨[], _, rfl, by simp⟩, .inl rfl⟩

end Demo

/-- C97 fails: the documentation has a `std::logic_error` when the file could not be read or is not valid. A file that is not there, one
with text where a number should be, one that is text only, and one with a layer that is text give a `std::runtime_error`. -/
theorem C97_false_logic_error :
    (loadBundle binary64 binary32 Demo.reader Demo.cv ⟨.missing, fun _ => none⟩ Demo.base.toDbl).1 = .thrown .runtimeError ∧
    (loadBundle binary64 binary32 Demo.reader Demo.cv ⟨.parsed (Demo.tree "0.5" "half" "1" "2" .null), fun _ => none⟩
      Demo.base.toDbl).1 = .thrown .runtimeError ∧
    (loadBundle binary64 binary32 Demo.reader Demo.cv ⟨.parsed (.scalar "hello"), fun _ => none⟩ Demo.base.toDbl).1 =
      .thrown .runtimeError ∧
    (loadBundle binary64 binary32 Demo.reader Demo.cv ⟨.parsed (Demo.tree "0.5" "0.5" "1" "2" (.seq [.scalar "a"])), fun _ => none⟩
      Demo.base.toDbl).1 = .thrown .runtimeError := by
  refine ⟨rfl, by decide +kernel, rfl, by decide +kernel⟩

/-- C97 fails: values that are valid numbers end the program. -/
theorem C97_false_abort :
    (loadBundle binary64 binary32 Demo.reader Demo.cv ⟨.parsed (Demo.tree "0.5" "0.5" "0" "2" .null), fun _ => none⟩
      Demo.base.toDbl).1 = .assertFail ∧
    (loadBundle binary64 binary32 Demo.reader Demo.cv ⟨.parsed (Demo.tree "0.5" "-0.5" "1" "2" .null), fun _ => none⟩
      Demo.base.toDbl).1 = .assertFail ∧
    (loadBundle binary64 binary32 Demo.reader Demo.cv ⟨.parsed (Demo.tree "0.5" ".nan" "1" "2" .null), fun _ => none⟩
      Demo.base.toDbl).1 = .assertFail := by
  refine ⟨by decide +kernel, by decide +kernel, by decide +kernel⟩

/-- C97 fails: an infinite resolution, and a number of cells that fits `unsigned int` but not `int`, have undefined behaviour. -/
theorem C97_false_undefined :
    (loadBundle binary64 binary32 Demo.reader Demo.cv ⟨.parsed (Demo.tree "0.5" ".inf" "1" "2" .null), fun _ => none⟩
      Demo.base.toDbl).1 = .ub ∧
    (loadBundle binary64 binary32 Demo.reader Demo.cv ⟨.parsed (Demo.tree "0.5" "0.5" "3000000000" "2" .null), fun _ => none⟩
      Demo.base.toDbl).1 = .ub := by
  refine ⟨by decide +kernel, by decide +kernel⟩

/-- C97 fails: a centre that is NaN is accepted, and nothing is inside of the map then. -/
theorem C97_false_nan : ∃ m', loadBundle binary64 binary32 Demo.reader Demo.cv
      ⟨.parsed (Demo.tree ".nan" "0.5" "1" "2" .null), fun _ => none⟩ Demo.base.toDbl = (.ok (), m') ∧ m'.size = ⟨1, 2⟩ ∧
      ∀ p, m'.isInsideD binary64 p = false := by
  have hs := Demo.tree_says (centre := ".nan") (res := "0.5") (nx := "1") (ny := "2") (layers := .null) (vs := []) (ls := [])
    (c := .nan) (r := .fin (1 / 2)) (x := 1) (y := 2) (by simp [Demo.reader]) (by simp [Demo.reader]) (by simp [Demo.reader])
    (by simp [Demo.reader]) rfl .nil
  obtain ⟨m', h1, h2, -, h3⟩ := C97_load_partial binary64_double binary32_single toFloat_cells Demo.cv
    (files := ⟨.parsed (Demo.tree ".nan" "0.5" "1" "2" .null), fun _ => none⟩) rfl hs (r := 1 / 2) rfl (by norm_num) (by decide)
    (by decide) (by decide) (by decide) (by unfold binary32; decide +kernel) (by unfold binary32; decide +kernel)
    (e := Demo.base.toDbl) ⟨Demo.base_coherent.nodup, Demo.base_coherent.mem_iff, Demo.base_coherent.dims⟩
  refine ⟨m', h1, h2, fun p => ?_⟩
  by_contra hn
  obtain ⟨-, -, hp⟩ := C90_inside_number m' p (by simpa using hn)
  have := hp.1
  rw [h3.position] at this
  exact this

/-- C97 fails: the costs are not those of the pixels when the file has 16 bits per channel. The only pixels are half gray. -/
theorem C97_false_16_bits :
    (loadBundle binary64 binary32 Demo.reader Demo.cv ⟨.parsed (Demo.tree "0.5" "0.5" "1" "2" (.seq [Demo.oneLayer])),
      fun _ => some (.gray16 ⟨1, 2, [32768, 32768], rfl⟩)⟩ Demo.base.toDbl).2.at "a" ⟨0, 0⟩ = .ok LETHAL_OBSTACLE ∧
    (Image.mono16 ⟨1, 2, [32768, 32768], rfl⟩).costAt Demo.cv ⟨0, 0⟩ = some 127 := by
  refine ⟨by decide +kernel, by decide +kernel⟩

/-! ## Examples -/

theorem Demo.base_toDbl : Demo.base.toDbl.Coherent := ⟨Demo.base_coherent.nodup, Demo.base_coherent.mem_iff, Demo.base_coherent.dims⟩

/-- A bundle whose layers are a mapping with the key 0, and an image of 8 bits: the layer has the cost of its pixels. -/
example : ∃ m', loadBundle binary64 binary32 Demo.reader Demo.cv
      ⟨.parsed (Demo.tree "0.5" "0.5" "1" "2" (.map [("0", Demo.oneLayer)])), fun _ => some (.eight (.gray ⟨1, 2, [0, 255], rfl⟩))⟩
      Demo.base.toDbl = (.ok (), m') ∧ m'.at "a" ⟨0, 0⟩ = .ok LETHAL_OBSTACLE ∧ m'.at "b" ⟨0, 0⟩ = .ok NO_INFORMATION := by
  have hs := Demo.tree_says (centre := "0.5") (res := "0.5") (nx := "1") (ny := "2") (layers := .map [("0", Demo.oneLayer)])
    (vs := [Demo.oneLayer]) (ls := [("a", "a.png")])
    (c := .fin (1 / 2)) (r := .fin (1 / 2)) (x := 1) (y := 2) (by simp [Demo.reader]) (by simp [Demo.reader]) (by simp [Demo.reader])
    (by simp [Demo.reader]) ⟨rfl, fun i hi => by
      obtain rfl : i = 0 := by simpa using hi
      exact ⟨[], "0", [], rfl, by simp [Demo.reader], by simp⟩⟩ (.cons Demo.oneLayer_isLayer .nil)
  obtain ⟨m', h1, h2, -, h3⟩ := C97_load_partial binary64_double binary32_single toFloat_cells Demo.cv
    (files := ⟨.parsed (Demo.tree "0.5" "0.5" "1" "2" (.map [("0", Demo.oneLayer)])),
      fun _ => some (.eight (.gray ⟨1, 2, [0, 255], rfl⟩))⟩) rfl hs (r := 1 / 2) rfl (by norm_num) (by decide)
    (by decide) (by decide) (by decide) (by unfold binary32; decide +kernel) (by unfold binary32; decide +kernel) Demo.base_toDbl
  obtain ⟨c, c1, c2⟩ := (h3.new "a" "a.png" rfl).1 _ rfl (by rw [h2]; rfl) (by rw [h2]; rfl) ⟨0, 0⟩ (by rw [h2]; decide)
  refine ⟨m', h1, ?_, h3.old "b" (by decide +kernel) (by decide) ⟨0, 0⟩ (by rw [h2]; decide)⟩
  rw [c2]
  have : (some c : Option Cost) = some LETHAL_OBSTACLE := by rw [← c1]; decide +kernel
  cases this
  rfl

/-- A file of which the end is missing. -/
example : loadBundle binary64 binary32 Demo.reader Demo.cv
    ⟨.parsed (.map [("frame_id", .scalar "map"), ("centre_x", .scalar "0.5")]), fun _ => none⟩ Demo.base.toDbl =
      (.thrown .logicError, Demo.base.toDbl) := by
  refine C97_missing_key _ _ _ _ (.inr ⟨_, rfl, by simp, "resolution", by simp [bundleKeys], fun v hv => ?_⟩)
  rw [← Yaml.get_some] at hv
  simp [Yaml.get, List.lookup] at hv

example : loadBundle binary64 binary32 Demo.reader Demo.cv ⟨.parsed (Demo.tree "0.5" "half" "1" "2" .null), fun _ => none⟩
    Demo.base.toDbl = (.thrown .runtimeError, Demo.base.toDbl) := by
  refine C97_bad_value_partial _ _ _ _ (.inr (.inr ⟨_, rfl, fun k hk => ?_, .inr (.inl ⟨.scalar "half", ?_, ?_⟩)⟩))
  · simp only [bundleKeys, List.mem_cons, List.not_mem_nil, or_false] at hk
    rcases hk with rfl | rfl | rfl | rfl | rfl | rfl
    exacts [⟨_, [], _, rfl, by simp⟩, ⟨_, [_], _, rfl, by simp⟩, ⟨_, [_, _], _, rfl, by simp⟩, ⟨_, [_, _, _], _, rfl, by simp⟩,
      ⟨_, [_, _, _, _], _, rfl, by simp⟩, ⟨_, [_, _, _, _, _], _, rfl, by simp⟩]
  · exact ⟨[_, _, _], _, rfl, by simp⟩
  · rintro s h
    cases h
    simp [Demo.reader]

/-- The second of two layers has no image. -/
example : loadBundle binary64 binary32 Demo.reader Demo.cv
    ⟨.parsed (Demo.tree "0.5" "0.5" "1" "2" (.seq [Demo.oneLayer, .map [("layer_name", .scalar "b")]])), fun _ => none⟩
    Demo.base.toDbl = (.thrown .logicError, Demo.base.toDbl) := by
  have hs := Demo.tree_says (centre := "0.5") (res := "0.5") (nx := "1") (ny := "2") (layers := .null) (vs := []) (ls := [])
    (c := .fin (1 / 2)) (r := .fin (1 / 2)) (x := 1) (y := 2) (by simp [Demo.reader]) (by simp [Demo.reader]) (by simp [Demo.reader])
    (by simp [Demo.reader]) rfl .nil
  refine C97_bad_layer (d := ⟨"map", ⟨.fin (1 / 2), .fin (1 / 2)⟩, .fin (1 / 2), 1, 2, []⟩) (good := [Demo.oneLayer]) (rest := [])
    (bad := .map [("layer_name", .scalar "b")]) _ _ rfl ?_ ⟨[_, _, _, _, _, _], _, rfl, by simp⟩ ?_ (by simp) (.inr fun v hv => ?_)
  · exact ⟨⟨_, ⟨[], _, rfl, by simp⟩, .inl rfl⟩, ⟨"0.5", ⟨[_], _, rfl, by simp⟩, by simp [Demo.reader]⟩,
      ⟨"0.5", ⟨[_, _], _, rfl, by simp⟩, by simp [Demo.reader]⟩, ⟨"0.5", ⟨[_, _, _], _, rfl, by simp⟩, by simp [Demo.reader]⟩,
      ⟨"1", ⟨[_, _, _, _], _, rfl, by simp⟩, by simp [Demo.reader]⟩, ⟨"2", ⟨[_, _, _, _, _], _, rfl, by simp⟩, by simp [Demo.reader]⟩⟩
  · intro v hv
    rw [List.mem_singleton.1 hv]
    exact ⟨_, Demo.oneLayer_isLayer⟩
  · rw [← Yaml.get_some] at hv
    simp [Yaml.get, List.lookup] at hv

example : loadBundle binary64 binary32 Demo.reader Demo.cv ⟨.parsed (Demo.tree "0.5" ".inf" "1" "2" .null), fun _ => none⟩
    Demo.base.toDbl = (.ub, Demo.base.toDbl) :=
  C97_infinite_resolution binary32_single _ _ rfl (Demo.tree_says (centre := "0.5") (res := ".inf") (nx := "1") (ny := "2")
    (layers := .null) (vs := []) (ls := []) (c := .fin (1 / 2)) (r := .pinf) (x := 1) (y := 2) (by simp [Demo.reader])
    (by simp [Demo.reader]) (by simp [Demo.reader]) (by simp [Demo.reader]) rfl .nil) rfl (by decide) (by decide)

/-- Two gray images of 16 bits that differ in the right half only. -/
example : SameLeftHalf (⟨1, 2, [7, 1], rfl⟩ : Mat UInt16) ⟨1, 2, [7, 2], rfl⟩ ∧
    (⟨1, 2, [7, 1], rfl⟩ : Mat UInt16).get? 0 1 ≠ (⟨1, 2, [7, 2], rfl⟩ : Mat UInt16).get? 0 1 := by
  refine ⟨⟨rfl, rfl, fun i j hj => ?_⟩, by decide +kernel⟩
  obtain rfl : j = 0 := by simp only at hj; omega
  by_cases hi : i = 0
  · subst hi; decide +kernel
  · have out : ∀ m : Mat UInt16, m.rows = 1 → m.get? i (0 : Nat) = none := by
      intro m hm
      unfold Mat.get?
      rw [if_neg]
      rintro ⟨-, h, -⟩
      omega
    rw [out _ rfl, out _ rfl]

example : (FileImage.toImage (some ((AnyFile.gray16 ⟨1, 3, [1, 65280, 9], rfl⟩).as8 Demo.cv))).costAt Demo.cv ⟨0, 2⟩ =
    some (grayCost 256 0) := by
  obtain ⟨-, -, v, hv, h⟩ := C97_gray_partial Demo.cv ⟨1, 3, [1, 65280, 9], rfl⟩ 0 2 (by decide) (by decide)
  refine h.trans ?_
  have : (some v : Option UInt16) = some 65280 := by rw [← hv]; decide +kernel
  cases this
  decide +kernel

end CostMapModel

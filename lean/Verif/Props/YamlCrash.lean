import Verif.Spec.YamlCrash
import Verif.Props.AnyBundle

/-!
# C98: a save that was interrupted while it wrote the YAML file
-/

set_option linter.unusedSectionVars false

namespace CostMapModel
open CostMap

section
variable {K : Type} {rd : Reader K} {w : Writer (Dbl K)}

theorem layerTree_isLayer (l f : String) :
    rd.IsLayer (.map [("layer_name", .scalar l), ("layer_data", .scalar f)]) (l, f) :=
  ⟨_, _, ⟨[], _, rfl, by simp⟩, .inl rfl, ⟨[_], _, rfl, by simp⟩, .inl rfl⟩

theorem isLayer_unique {y : Yaml} {p q : String × String} (hp : rd.IsLayer y p) (hq : rd.IsLayer y q) : p = q := by
  have h1 := Reader.item_ok.2 ⟨y, rfl, hp⟩
  have h2 := Reader.item_ok.2 ⟨y, rfl, hq⟩
  rw [h1] at h2
  cases h2
  rfl

/-- C98. The complete file says the frame, the size, the layers and the resolution of the map, and its x coordinate twice, as far as
the reader reads what the writer wrote. -/
theorem C98_complete {m : CostMap (Dbl K)} {c res : Dbl K} {nx ny : Nat} (hc : rd.double (w.double m.position.x) = some c)
    (hr : rd.float (w.double m.resolution) = some res) (hx : rd.uint (w.int m.size.x) = some nx)
    (hy : rd.uint (w.int m.size.y) = some ny) :
    rd.Says (m.savedTree w) ⟨m.frameId, ⟨c, c⟩, res, nx, ny, m.layers.map fun l => (l, l ++ ".png")⟩ where
  frame := ⟨_, ⟨[], _, rfl, by simp⟩, .inl rfl⟩
  centre_x := ⟨_, ⟨[_], _, rfl, by simp⟩, hc⟩
  centre_y := ⟨_, ⟨[_, _], _, rfl, by simp⟩, hc⟩
  resolution := ⟨_, ⟨[_, _, _], _, rfl, by simp⟩, hr⟩
  cells_x := ⟨_, ⟨[_, _, _, _], _, rfl, by simp⟩, hx⟩
  cells_y := ⟨_, ⟨[_, _, _, _, _], _, rfl, by simp⟩, hy⟩
  layers := by
    refine .inr ⟨_, m.layers.map fun l => .map [("layer_name", .scalar l), ("layer_data", .scalar (l ++ ".png"))],
      ⟨[_, _, _, _, _, _], _, rfl, by simp⟩, ?_, ?_⟩
    · cases h : m.layers with
      | nil => simp [Reader.IsList]
      | cons l ls => simp [Reader.IsList]
    · simp only
      induction m.layers with
      | nil => exact .nil
      | cons l ls ih => exact .cons (layerTree_isLayer _ _) ih

theorem cut_scalar {s : String} {v : Yaml} (h : (Yaml.scalar s).Cut v) : v = .null ∨ ∃ t, v = .scalar t ∧ t.toList <+: s.toList := by
  cases h with
  | none => exact .inl rfl
  | scalar h => exact .inr ⟨_, rfl, h⟩

theorem field_lookup {es : List (String × Yaml)} {k : String} {v : Yaml} (h : (Yaml.map es).Field k v) : es.lookup k = some v := by
  rw [← Yaml.get_some] at h
  simpa [Yaml.get] using h

/-- What a cut layer says. -/
theorem cut_layer {l f : String} {v : Yaml} {p : String × String}
    (hc : (Yaml.map [("layer_name", .scalar l), ("layer_data", .scalar f)]).Cut v) (hl : rd.IsLayer v p) :
    p.1 = l ∧ (p.2.toList <+: f.toList ∨ rd.null = some p.2) := by
  obtain ⟨n, d, f1, t1, f2, t2⟩ := hl
  cases hc with
  | none => obtain ⟨_, _, h, _⟩ := f1; cases h
  | key => obtain ⟨_, _, h, _⟩ := f1; cases h
  | map _ k =>
    have g1 := field_lookup f1
    have g2 := field_lookup f2
    match k with
    | 0 => simp at g2
    | 1 => simp [List.lookup] at g2
    | k + 2 =>
      simp [List.lookup] at g1 g2
      subst g1 g2
      rcases t1 with h | ⟨h, -⟩ <;> cases h
      rcases t2 with h | ⟨h, -⟩ <;> cases h
      exact ⟨rfl, .inl (List.prefix_refl _)⟩
  | @mapLast _ k _ _ v' hk hcut =>
    have g1 := field_lookup f1
    have g2 := field_lookup f2
    match k with
    | 0 =>
      cases hk
      simp [List.lookup] at g2
    | 1 =>
      cases hk
      simp [List.lookup] at g1 g2
      subst g1 g2
      rcases t1 with h | ⟨h, -⟩ <;> cases h
      refine ⟨rfl, ?_⟩
      rcases cut_scalar hcut with rfl | ⟨t, rfl, ht⟩
      · rcases t2 with h | ⟨-, h⟩
        · cases h
        · exact .inr h
      · rcases t2 with h | ⟨h, -⟩ <;> cases h
        exact .inl ht
    | k + 2 => cases hk

theorem forall₂_append {α β : Type} {R : α → β → Prop} : ∀ {as bs : List α} {cs : List β}, List.Forall₂ R (as ++ bs) cs →
    ∃ cs1 cs2, List.Forall₂ R as cs1 ∧ List.Forall₂ R bs cs2 ∧ cs = cs1 ++ cs2
  | [], bs, cs, h => ⟨[], cs, .nil, h, rfl⟩
  | a :: as, bs, cs, h => by
    cases h with
    | cons h1 h2 =>
      obtain ⟨cs1, cs2, g1, g2, rfl⟩ := forall₂_append h2
      exact ⟨_ :: cs1, cs2, .cons h1 g1, g2, rfl⟩

/-- The layers a beginning of the list says. -/
theorem cut_layers {ls : List String} {v : Yaml} {vs : List Yaml} {ps : List (String × String)}
    (hc : (Yaml.seq (ls.map fun l => .map [("layer_name", .scalar l), ("layer_data", .scalar (l ++ ".png"))])).Cut v)
    (hv : rd.IsList v vs) (hp : List.Forall₂ rd.IsLayer vs ps) : CutLayers rd (ls.map fun l => (l, l ++ ".png")) ps := by
  have full : ∀ (ks : List String) {ps : List (String × String)},
      List.Forall₂ rd.IsLayer (ks.map fun l => .map [("layer_name", .scalar l), ("layer_data", .scalar (l ++ ".png"))]) ps →
      ps = ks.map fun l => (l, l ++ ".png") := by
    intro ks
    induction ks with
    | nil => intro ps h; cases h; rfl
    | cons k ks ih =>
      intro ps h
      cases h with
      | cons h1 h2 =>
        rw [isLayer_unique h1 (layerTree_isLayer _ _), ih h2]
        rfl
  cases hc with
  | none =>
    have : vs = [] := hv
    subst this
    cases hp
    exact ⟨0, .inl (by simp)⟩
  | seq _ k =>
    have : vs = _ := hv
    subst this
    rw [← List.map_take] at hp
    exact ⟨k, .inl (by rw [full _ hp, List.map_take])⟩
  | @seqLast _ k v v' hk hcut =>
    have : vs = _ := hv
    subst this
    rw [← List.map_take] at hp
    obtain ⟨ps1, ps2, h1, h2, rfl⟩ := forall₂_append hp
    have e1 := full _ h1
    cases h2 with
    | @cons _ p _ _ hl h2 =>
    cases h2
    rw [List.getElem?_map, Option.map_eq_some_iff] at hk
    obtain ⟨l, hl', rfl⟩ := hk
    obtain ⟨c1, c2⟩ := cut_layer hcut hl
    refine ⟨k, .inr ⟨l, l ++ ".png", p.2, by rw [List.getElem?_map, hl']; rfl, c2, ?_⟩⟩
    rw [e1, List.map_take, ← c1]

theorem isText_unique {v : Yaml} {s t : String} (hs : rd.IsText v s) (ht : rd.IsText v t) : s = t := by
  have h1 := Reader.text_ok.2 hs
  rw [Reader.text_ok.2 ht] at h1
  cases h1
  rfl

/-- Trees with the same first five values say the same about them. -/
theorem says_agree {y y' : Yaml} {d d' : Description K} (hd : rd.SaysKeys y d) (hd' : rd.SaysKeys y' d')
    (h : ∀ k ∈ ["frame_id", "centre_x", "centre_y", "resolution", "number_of_cells_x"], ∀ v, y'.Field k v → y.Field k v) :
    d'.frame = d.frame ∧ d'.centre = d.centre ∧ d'.resolution = d.resolution ∧ d'.cellsX = d.cellsX := by
  obtain ⟨⟨v1, f1, t1⟩, ⟨s2, f2, t2⟩, ⟨s3, f3, t3⟩, ⟨s4, f4, t4⟩, ⟨s5, f5, t5⟩, -⟩ := hd
  obtain ⟨⟨v1', f1', t1'⟩, ⟨s2', f2', t2'⟩, ⟨s3', f3', t3'⟩, ⟨s4', f4', t4'⟩, ⟨s5', f5', t5'⟩, -⟩ := hd'
  have e1 := Yaml.field_unique f1 (h _ (by simp) _ f1')
  have e2 := Yaml.field_unique f2 (h _ (by simp) _ f2')
  have e3 := Yaml.field_unique f3 (h _ (by simp) _ f3')
  have e4 := Yaml.field_unique f4 (h _ (by simp) _ f4')
  have e5 := Yaml.field_unique f5 (h _ (by simp) _ f5')
  subst e1
  cases e2
  cases e3
  cases e4
  cases e5
  rw [t2] at t2'
  rw [t3] at t3'
  rw [t4] at t4'
  rw [t5] at t5'
  simp only [Option.some.injEq] at t2' t3' t4' t5'
  refine ⟨isText_unique t1' t1, ?_, t4'.symm, t5'.symm⟩
  rcases hx : d'.centre with ⟨a, b⟩
  rcases hy : d.centre with ⟨a', b'⟩
  rw [hx, hy] at t2' t3'
  simp only at t2' t3'
  rw [t2', t3']

theorem field_of_lookup {es : List (String × Yaml)} {k : String} {v : Yaml} (h : es.lookup k = some v) : (Yaml.map es).Field k v := by
  rw [← Yaml.get_some]
  simpa [Yaml.get] using h

theorem cellsY_agree {y y' : Yaml} {d d' : Description K} (hd : rd.SaysKeys y d) (hd' : rd.SaysKeys y' d')
    (h : ∀ v, y'.Field "number_of_cells_y" v → y.Field "number_of_cells_y" v) : d'.cellsY = d.cellsY := by
  obtain ⟨s, f, t⟩ := hd.cells_y
  obtain ⟨s', f', t'⟩ := hd'.cells_y
  cases Yaml.field_unique f (h _ f')
  rw [t] at t'
  exact (Option.some.inj t').symm

/-- The layers of the complete file. -/
theorem saved_layers {m : CostMap (Dbl K)} {d : Description K} (hd : rd.Says (m.savedTree w) d) :
    d.layers = m.layers.map fun l => (l, l ++ ".png") := by
  have hf : (m.savedTree w).Field "layers" _ := ⟨[_, _, _, _, _, _], [], rfl, by simp⟩
  rcases hd.layers with ⟨h, -⟩ | ⟨v, vs, h1, h2, h3⟩
  · exact absurd hf (h _)
  · cases Yaml.field_unique hf h1
    have hv : vs = m.layers.map fun l => .map [("layer_name", .scalar l), ("layer_data", .scalar (l ++ ".png"))] := by
      cases h : m.layers with
      | nil => rw [h] at h2; exact h2
      | cons l ls => rw [h] at h2; exact h2
    rw [hv] at h3
    generalize m.layers = ls at h3
    generalize d.layers = ps at h3
    induction ls generalizing ps with
    | nil => cases h3; rfl
    | cons l ls ih =>
      cases h3 with
      | cons a b => rw [isLayer_unique a (layerTree_isLayer _ _), ih _ b]; rfl

theorem field_take {es : List (String × Yaml)} {k : Nat} {n : String} {v : Yaml} (h : (Yaml.map (es.take k)).Field n v) :
    (Yaml.map es).Field n v := by
  obtain ⟨b, a, e, hn⟩ := h
  refine ⟨b, a ++ es.drop k, ?_, hn⟩
  have e := Yaml.map.inj e
  rw [← List.cons_append, ← List.append_assoc, ← e, List.take_append_drop]

theorem field_takeLast {es : List (String × Yaml)} {k : Nat} {n n' : String} {v v' : Yaml} (hne : n ≠ n')
    (h : (Yaml.map (es.take k ++ [(n', v')])).Field n v) : (Yaml.map es).Field n v := by
  apply field_take (k := k)
  have h := field_lookup h
  apply field_of_lookup
  rw [List.lookup_append] at h
  have : List.lookup n [(n', v')] = none := by simp [List.lookup, beq_eq_false_iff_ne.2 hne]
  rw [this] at h
  simpa using h

/-- C98. What the file says when it ends early, if it says anything. -/
theorem C98_cut_says {m : CostMap (Dbl K)} {y : Yaml} {d d' : Description K} (hc : (m.savedTree w).Cut y)
    (hd : rd.Says (m.savedTree w) d) (hd' : rd.Says y d') : CutDescription rd (w.int m.size.y) d d' := by
  have hly := saved_layers hd
  obtain ⟨s6, f6, t6⟩ := hd'.cells_y
  have no_layers : d'.layers = [] → CutLayers rd d.layers d'.layers := fun h => ⟨0, .inl (by simp [h])⟩
  have hS : m.savedTree w = m.savedTree w := rfl
  conv_rhs at hS => unfold CostMap.savedTree
  rw [hS] at hc
  cases hc with
  | none => obtain ⟨_, _, h, _⟩ := f6; cases h
  | key => obtain ⟨_, _, h, _⟩ := f6; cases h
  | map _ k =>
    have sub : ∀ n v, Yaml.Field _ n v → (m.savedTree w).Field n v := fun n v h => field_take (k := k) h
    obtain ⟨a1, a2, a3, a4⟩ := says_agree hd.toSaysKeys hd'.toSaysKeys fun n _ v => sub n v
    refine ⟨a1, a2, a3, a4, .inl (cellsY_agree hd.toSaysKeys hd'.toSaysKeys fun v => sub _ v), ?_⟩
    rcases hd'.layers with ⟨-, h⟩ | ⟨v, vs, h1, h2, h3⟩
    · exact no_layers h
    · refine ⟨d.layers.length, .inl ?_⟩
      rw [List.take_length]
      have hs : rd.Says (m.savedTree w) { d with layers := d'.layers } :=
        ⟨⟨hd.frame, hd.centre_x, hd.centre_y, hd.resolution, hd.cells_x, hd.cells_y⟩, .inr ⟨v, vs, sub _ _ h1, h2, h3⟩⟩
      exact (saved_layers hs).trans hly.symm
  | @mapLast _ k _ _ v' hk hcut =>
    have g6 := field_lookup f6
    match k with
    | 0 | 1 | 2 | 3 | 4 => cases hk; simp [List.lookup] at g6
    | 5 =>
      cases hk
      obtain ⟨a1, a2, a3, a4⟩ := says_agree hd.toSaysKeys hd'.toSaysKeys fun n hn v h =>
        field_takeLast (k := 5) (n' := "number_of_cells_y") (by rintro rfl; simp at hn) h
      have hl' : d'.layers = [] := by
        rcases hd'.layers with ⟨-, h⟩ | ⟨v, vs, h, -⟩
        · exact h
        · have := field_lookup h
          simp [List.lookup] at this
      refine ⟨a1, a2, a3, a4, .inr ⟨hl', ?_⟩, no_layers hl'⟩
      simp [List.lookup] at g6
      subst g6
      rcases cut_scalar hcut with h | ⟨t, h, ht⟩
      · cases h
      · cases h
        exact ⟨_, ht, t6⟩
    | 6 =>
      cases hk
      obtain ⟨a1, a2, a3, a4⟩ := says_agree hd.toSaysKeys hd'.toSaysKeys fun n hn v h =>
        field_takeLast (k := 6) (n' := "layers") (by rintro rfl; simp at hn) h
      refine ⟨a1, a2, a3, a4, .inl (cellsY_agree hd.toSaysKeys hd'.toSaysKeys fun v h =>
        field_takeLast (k := 6) (n' := "layers") (by decide) h), ?_⟩
      rcases hd'.layers with ⟨-, h⟩ | ⟨v, vs, h1, h2, h3⟩
      · exact no_layers h
      · have g7 := field_lookup h1
        simp [List.lookup] at g7
        subst g7
        rw [hly]
        cases hL : m.layers with
        | nil =>
          rw [hL] at hcut
          cases hcut
          have : vs = [] := h2
          subst this
          exact ⟨0, .inl (by simpa using h3)⟩
        | cons l ls =>
          rw [hL] at hcut
          exact cut_layers hcut h2 h3
    | k + 7 => cases hk

end

section
variable {K : Type} [Field K] [LinearOrder K] [IsStrictOrderedRing K] [FloorRing K] {F Ff : Fmt K}

/-- C98. While the YAML file is written, and after a save that ended there, the bundle is rejected and the map to load into stays as it
was; or it says what the complete file says, except that the list of layers may end early, and that without layers the number of cells
along y may have lost digits. What is loaded then has that description, with the images from before the save. Missing: the description
is not always the one of the saved map, see `C98_false_size` and `C98_false_layers`. -/
theorem C98_cut_partial (hF : F.Double) (hf : Ff.Single) (rd : Reader K) (w : Writer (Dbl K)) (cv : Cv) {m : CostMap (Dbl K)}
    {old files : AnyFiles} (hw : WhileWritingYaml w m old files) {d : Description K} (hd : rd.Says (m.savedTree w) d)
    {e : CostMap (Dbl K)} (he : e.Coherent) :
    loadBundle F Ff rd cv files e = (.thrown .logicError, e) ∨ loadBundle F Ff rd cv files e = (.thrown .runtimeError, e) ∨
    ∃ d', CutDescription rd (w.int m.size.y) d d' ∧
      (loadBundle F Ff rd cv files e = (.assertFail, e) ∨ loadBundle F Ff rd cv files e = (.ub, e) ∨
       ∃ m', loadBundle F Ff rd cv files e = (.ok (), m') ∧ Loaded cv (fun n => (old.images n).map (·.as8 cv)) d' e m') := by
  have hi : files.images = old.images := by cases hw <;> rfl
  rcases C97_outcomes hF hf rd cv files he with ⟨h | h, -⟩ | ⟨y, d', hy, hs, h⟩
  · exact .inl h
  · exact .inr (.inl h)
  · refine .inr (.inr ⟨d', ?_, ?_⟩)
    · cases hw with
      | unparsable => cases hy
      | cut hc => cases hy; exact C98_cut_says hc hd hs
    · rw [hi] at h
      rcases h with ⟨h, -⟩ | ⟨-, -, -, h | h⟩
      · exact .inl h
      · exact .inr (.inl h)
      · exact .inr (.inr h)

end

namespace Demo

/-- Two by twelve cells. -/
def strip : CostMap (Dbl ℚ) := (CostMap.setGeometry ⟨1, 6⟩ (1 / 2) ⟨1 / 2, 1 / 2⟩ (CostMap.new ["a"] : CostMap ℚ)).2.toDbl

def digits : Reader ℚ := { reader with
  uint := fun s => if s = "1" then some 1 else if s = "2" then some 2 else if s = "12" then some 12 else none }

def writer : Writer (Dbl ℚ) where
  double := fun x => match x with
    | .fin r => if r = 1 / 2 then "0.5" else ".inf"
    | _ => ".nan"
  int := fun n => if n = 12 then "12" else if n = 2 then "2" else "1"

theorem strip_x : strip.position.x = .fin (1 / 2) := congrArg Dbl.fin (by decide +kernel)
theorem strip_res : strip.resolution = .fin (1 / 2) := congrArg Dbl.fin (by decide +kernel)
theorem strip_size : strip.size = ⟨2, 12⟩ := by decide +kernel
theorem strip_layers : strip.layers = ["a"] := by decide +kernel
theorem strip_frame : strip.frameId = "" := by decide +kernel

/-- The complete file. -/
theorem strip_tree : strip.savedTree writer = .map [("frame_id", .scalar ""), ("centre_x", .scalar "0.5"),
    ("centre_y", .scalar "0.5"), ("resolution", .scalar "0.5"), ("number_of_cells_x", .scalar "2"),
    ("number_of_cells_y", .scalar "12"),
    ("layers", .seq [.map [("layer_name", .scalar "a"), ("layer_data", .scalar ("a" ++ ".png"))]])] := by
  simp [CostMap.savedTree, strip_x, strip_res, strip_size, strip_layers, strip_frame, writer]

/-- The complete file is read as the map. -/
theorem strip_says : digits.Says (strip.savedTree writer)
    ⟨"", ⟨.fin (1 / 2), .fin (1 / 2)⟩, .fin (1 / 2), 2, 12, [("a", "a" ++ ".png")]⟩ := by
  have := C98_complete (rd := digits) (w := writer) (m := strip) (c := .fin (1 / 2)) (res := .fin (1 / 2)) (nx := 2) (ny := 12)
    (by simp [strip_x, writer, digits, reader]) (by simp [strip_res, writer, digits, reader])
    (by simp [strip_size, writer, digits]) (by simp [strip_size, writer, digits])
  rw [strip_frame, strip_layers] at this
  exact this

/-- The file of which the last digit of the number of cells along y is missing, and all that follows. -/
def shortNumber : Yaml := .map [("frame_id", .scalar ""), ("centre_x", .scalar "0.5"), ("centre_y", .scalar "0.5"),
  ("resolution", .scalar "0.5"), ("number_of_cells_x", .scalar "2"), ("number_of_cells_y", .scalar "1")]

theorem shortNumber_cut : (strip.savedTree writer).Cut shortNumber := by
  rw [strip_tree]
  exact .mapLast (es := [_, _, _, _, _, _, _]) (k := 5) rfl (.scalar (s := "12") (t := "1") ⟨['2'], by decide⟩)

/-- The file that ends before the layers. -/
def noLayers : Yaml := .map [("frame_id", .scalar ""), ("centre_x", .scalar "0.5"), ("centre_y", .scalar "0.5"),
  ("resolution", .scalar "0.5"), ("number_of_cells_x", .scalar "2"), ("number_of_cells_y", .scalar "12")]

theorem noLayers_cut : (strip.savedTree writer).Cut noLayers := by
  rw [strip_tree]
  exact .map [_, _, _, _, _, _, _] 6

/-- A map without layers to load into. -/
def fresh : CostMap (Dbl ℚ) := (CostMap.new [] : CostMap ℚ).toDbl

end Demo

/-- C98 fails: a map of two by twelve cells was being saved, the file ends in the number of cells, and it loads without an error as a
map of two cells. -/
theorem C98_false_size : ∃ files, WhileWritingYaml Demo.writer Demo.strip ⟨.missing, fun _ => none⟩ files ∧
    Demo.strip.size = ⟨2, 12⟩ ∧ (loadBundle binary64 binary32 Demo.digits Demo.cv files Demo.fresh).1 = .ok () ∧
    (loadBundle binary64 binary32 Demo.digits Demo.cv files Demo.fresh).2.size = ⟨2, 1⟩ :=
  ⟨_, .cut Demo.shortNumber_cut, by decide +kernel, by decide +kernel, by decide +kernel⟩

/-- C98 fails: the file ends before the layers, and it loads without an error as a map without layers. -/
theorem C98_false_layers : ∃ files, WhileWritingYaml Demo.writer Demo.strip ⟨.missing, fun _ => none⟩ files ∧
    Demo.strip.layers = ["a"] ∧ (loadBundle binary64 binary32 Demo.digits Demo.cv files Demo.fresh).1 = .ok () ∧
    (loadBundle binary64 binary32 Demo.digits Demo.cv files Demo.fresh).2.layers = [] :=
  ⟨_, .cut Demo.noLayers_cut, by decide +kernel, by decide +kernel, by decide +kernel⟩

/-! ## Examples -/

/-- `C98_cut_partial` for the file that ends in a number. -/
example : ∃ d', CutDescription Demo.digits "12" ⟨"", ⟨.fin (1 / 2), .fin (1 / 2)⟩, .fin (1 / 2), 2, 12, [("a", "a" ++ ".png")]⟩ d' ∧
    d'.cellsY = 1 ∧ d'.layers = [] := by
  have hs : Demo.digits.Says Demo.shortNumber ⟨"", ⟨.fin (1 / 2), .fin (1 / 2)⟩, .fin (1 / 2), 2, 1, []⟩ := by
    refine ⟨⟨⟨_, ⟨[], _, rfl, by simp⟩, .inl rfl⟩, ⟨_, ⟨[_], _, rfl, by simp⟩, by simp [Demo.digits, Demo.reader]⟩,
      ⟨_, ⟨[_, _], _, rfl, by simp⟩, by simp [Demo.digits, Demo.reader]⟩, ⟨_, ⟨[_, _, _], _, rfl, by simp⟩, by simp [Demo.digits, Demo.reader]⟩,
      ⟨_, ⟨[_, _, _, _], _, rfl, by simp⟩, by simp [Demo.digits, Demo.reader]⟩, ⟨_, ⟨[_, _, _, _, _], _, rfl, by simp⟩, by simp [Demo.digits, Demo.reader]⟩⟩,
      .inl ⟨fun v hv => ?_, rfl⟩⟩
    have := field_lookup hv
    simp [List.lookup] at this
  have h := C98_cut_says Demo.shortNumber_cut Demo.strip_says hs
  rw [Demo.strip_size] at h
  exact ⟨_, h, rfl, rfl⟩

/-- A file that ends in the key of the resolution is rejected. -/
example : loadBundle binary64 binary32 Demo.digits Demo.cv
    ⟨.parsed (.map [("frame_id", .scalar ""), ("centre_x", .scalar "0.5"), ("centre_y", .scalar "0.5")]), fun _ => none⟩ Demo.fresh =
      (.thrown .logicError, Demo.fresh) ∧
    (Demo.strip.savedTree Demo.writer).Cut
      (.map [("frame_id", .scalar ""), ("centre_x", .scalar "0.5"), ("centre_y", .scalar "0.5")]) := by
  refine ⟨C97_missing_key _ _ _ _ (.inr ⟨_, rfl, by simp, "resolution", by simp [bundleKeys], fun v hv => ?_⟩),
    by rw [Demo.strip_tree]; exact .map [_, _, _, _, _, _, _] 3⟩
  have := field_lookup hv
  simp [List.lookup] at this

end CostMapModel

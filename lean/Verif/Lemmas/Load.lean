import Verif.Props.Bundle

/-!
# Lemmas on loading any image bundle
-/

set_option linter.unusedSectionVars false

namespace CostMapModel
open CostMap
variable {K : Type} [Field K] [LinearOrder K] [IsStrictOrderedRing K] [FloorRing K]

theorem toImage_is8 (f : Option FileImage) : (FileImage.toImage f).Is8 := by
  cases f with
  | none => trivial
  | some f => cases f <;> trivial

/-- What loading an image makes of a cell of a map with `sx` by `sy` cells. -/
def loadedCost (cv : Cv) (f : Option FileImage) (size : Idx) (i : Idx) : Cost :=
  if size.x = (FileImage.toImage f).height ∧ size.y = (FileImage.toImage f).width then
    ((FileImage.toImage f).costAt cv i).getD NO_INFORMATION
  else NO_INFORMATION

theorem geo_congr {m m' : CostMap K} (hg : m.Geo) (sg : SameGeometry m m') : m'.Geo :=
  ⟨by rw [sg.resolution]; exact hg.res_pos, by rw [sg.size]; exact hg.size_x,
    by rw [sg.size]; exact hg.size_y, by rw [sg.length, sg.size, sg.resolution]; exact hg.len_x,
    by rw [sg.length, sg.size, sg.resolution]; exact hg.len_y, by rw [sg.startIndex, sg.size]; exact hg.start⟩

theorem sameGeometry_trans {a b c : CostMap K} (h : SameGeometry a b) (h' : SameGeometry b c) : SameGeometry a c :=
  ⟨h'.length.trans h.length, h'.resolution.trans h.resolution, h'.position.trans h.position, h'.size.trans h.size,
    h'.startIndex.trans h.startIndex⟩

theorem sameMeta_trans {a b c : CostMap K} (h : SameMeta a b) (h' : SameMeta b c) : SameMeta a c :=
  ⟨h'.frameId.trans h.frameId, h'.timestamp.trans h.timestamp, h'.basicLayers.trans h.basicLayers⟩

theorem loadLayer_any (cv : Cv) (files : Files K) (p : String × String) {m : CostMap K} (hg : m.Geo) (hc : m.Coherent) :
    ∃ m', loadLayer cv files p m = (.ok (), m') ∧ m'.Coherent ∧ SameGeometry m m' ∧ SameMeta m m' ∧
      m'.layers = (if m.exists p.1 then m.layers else m.layers ++ [p.1]) ∧
      (∀ l i, l ≠ p.1 → m'.at l i = m.at l i) ∧
      ∀ i, i.In m.size → m'.at p.1 i = .ok (loadedCost cv (files.images p.2) m.size i) := by
  have h8 := toImage_is8 (files.images p.2)
  have hr : (FileImage.toImage (files.images p.2)).readable = true := by
    revert h8; cases FileImage.toImage (files.images p.2) <;> intro h8 <;> first | rfl | cases h8
  by_cases hs : m.size.x = (FileImage.toImage (files.images p.2)).height ∧
      m.size.y = (FileImage.toImage (files.images p.2)).width
  · obtain ⟨m', h1, h2, h3, h4, h5, h6, h7⟩ := addLayerFromImage_run cv hg hc hr hs.1 hs.2 p.1
    refine ⟨m', by unfold loadLayer; rw [Act.bind_ok h1]; rfl, h2, h3, h4, h5, h6, fun i hi => ?_⟩
    obtain ⟨s, s1, s2⟩ := h7 i hi
    rw [s2, loadedCost, if_pos hs, sample_costAt8 h8 s1]; rfl
  · obtain ⟨m1, e1, c1, -, sg, sm, ly, un, ot⟩ := addConst_run hg.size_x.le hg.size_y.le hc p.1 NO_INFORMATION
    refine ⟨m1, ?_, c1, sg, sm, ly, fun l i hl => at_congr (ot l hl) i, fun i hi => ?_⟩
    · unfold loadLayer
      have : addLayerFromImage cv (FileImage.toImage (files.images p.2)) p.1 m = (.ok false, m1) := by
        unfold addLayerFromImage
        rw [if_neg (by simp [hr]), Act.bind_ok e1]
        rw [if_pos (by rw [sg.size]; by_contra hn; push Not at hn; exact hs hn)]
      rw [Act.bind_ok this]; rfl
    · rw [un i hi, loadedCost, if_neg hs]

theorem loadLayers_any (cv : Cv) (files : Files K) : ∀ {ps : List (String × String)} {m : CostMap K}, m.Geo → m.Coherent →
    (ps.map Prod.fst).Nodup →
    ∃ m', Act.forEach (loadLayer cv files) ps m = (.ok (), m') ∧ m'.Coherent ∧ SameGeometry m m' ∧ SameMeta m m' ∧
      m'.layers = m.layers ++ (ps.map Prod.fst).filter (fun l => decide (l ∉ m.layers)) ∧
      (∀ l i, l ∉ ps.map Prod.fst → m'.at l i = m.at l i) ∧
      ∀ p ∈ ps, ∀ i, i.In m.size → m'.at p.1 i = .ok (loadedCost cv (files.images p.2) m.size i)
  | [], m, _, hc, _ => ⟨m, rfl, hc, ⟨rfl, rfl, rfl, rfl, rfl⟩, ⟨rfl, rfl, rfl⟩, by simp, fun _ _ _ => rfl,
      fun p hp => by simp at hp⟩
  | p :: ps, m, hg, hc, hn => by
    obtain ⟨m1, e1, c1, sg, sm, ly, ot, vals⟩ := loadLayer_any cv files p hg hc
    rw [List.map_cons, List.nodup_cons] at hn
    obtain ⟨m', e2, c2, sg2, sm2, ly2, ot2, vals2⟩ := loadLayers_any cv files (ps := ps) (geo_congr hg sg) c1 hn.2
    refine ⟨m', ?_, c2, sameGeometry_trans sg sg2, sameMeta_trans sm sm2, ?_, ?_, ?_⟩
    · unfold Act.forEach
      rw [Act.bind_ok e1, e2]
    · have hex : m.exists p.1 = true ↔ p.1 ∈ m.layers := (hc.mem_iff _).symm
      rw [ly2, ly]
      by_cases hm : p.1 ∈ m.layers
      · rw [if_pos (hex.2 hm), List.map_cons, List.filter_cons_of_neg (by simpa using hm)]
      · rw [if_neg (fun h => hm (hex.1 h)), List.map_cons, List.filter_cons_of_pos (by simpa using hm), List.append_assoc,
          List.singleton_append]
        congr 2
        apply List.filter_congr
        intro l hl
        have : l ≠ p.1 := fun h => hn.1 (h ▸ hl)
        simp [this]
    · intro l i hl
      simp only [List.map_cons, List.mem_cons, not_or] at hl
      rw [ot2 l i hl.2, ot l i hl.1]
    · intro q hq i hi
      rcases List.mem_cons.1 hq with rfl | hq
      · rw [ot2 _ i hn.1, vals i hi]
      · rw [vals2 q hq i (by rw [sg.size]; exact hi), sg.size]

/-- Loading any bundle with a usable YAML file into any map. -/
theorem fromImageBundle_any (cv : Cv) {rf : K → K} (hrf : Close24 rf) {files : Files K} {b : BundleInfo K}
    (hb : readInfo rf files.yaml = .ok b) (hr : 0 < b.resolution) (hx : 0 < b.cellsX) (hy : 0 < b.cellsY)
    (hx' : b.cellsX < 2 ^ 23) (hy' : b.cellsY < 2 ^ 23) (hn : (b.layers.map Prod.fst).Nodup) {e : CostMap K} (he : e.Coherent) :
    ∃ m', fromImageBundle cv rf files e = (.ok (), m') ∧ m'.Coherent ∧ m'.Geo ∧ m'.frameId = b.frameId ∧ m'.timestamp = 0 ∧
      m'.basicLayers = e.basicLayers ∧ m'.position = b.centre ∧ m'.resolution = b.resolution ∧
      m'.size = ⟨b.cellsX, b.cellsY⟩ ∧ m'.length = ⟨b.cellsX * b.resolution, b.cellsY * b.resolution⟩ ∧ m'.startIndex = 0 ∧
      m'.layers = e.layers ++ (b.layers.map Prod.fst).filter (fun l => decide (l ∉ e.layers)) ∧
      (∀ l i, l ∈ e.layers → l ∉ b.layers.map Prod.fst → i.In m'.size → m'.at l i = .ok NO_INFORMATION) ∧
      ∀ p ∈ b.layers, ∀ i, i.In m'.size → m'.at p.1 i = .ok (loadedCost cv (files.images p.2) m'.size i) := by
  have nx : (0 : K) < b.cellsX := by exact_mod_cast hx
  have ny : (0 : K) < b.cellsY := by exact_mod_cast hy
  have rx := cells_round_trip hrf hr (n := b.cellsX) (by omega) (by omega)
  have ry := cells_round_trip hrf hr (n := b.cellsY) (by omega) (by omega)
  rw [Int.toNat_natCast] at rx ry
  have e1 := setGeometry_run (len := ⟨rf (b.resolution * b.cellsX), rf (b.resolution * b.cellsY)⟩)
    b.centre (hrf.pos (mul_pos hr nx)) (hrf.pos (mul_pos hr ny)) hr e
  have c1 := setGeometry_coherent ⟨rf (b.resolution * b.cellsX), rf (b.resolution * b.cellsY)⟩ b.resolution b.centre e he
  simp only [rx, ry] at e1
  rw [e1] at c1
  generalize hM : (⟨_, _, _, _, _, _, _, _, _, _⟩ : CostMap K) = M at e1 c1
  let M' := (M.setFrameId b.frameId).resetTimestamp
  have c2 : M'.Coherent := ⟨c1.nodup, c1.mem_iff, c1.dims⟩
  have s2 : M'.size = ⟨b.cellsX, b.cellsY⟩ := by change M.size = _; subst hM; rfl
  have g2 : M'.Geo := by
    refine ⟨?_, by rw [s2]; exact Int.ofNat_lt.2 hx, by rw [s2]; exact Int.ofNat_lt.2 hy, ?_, ?_, ?_⟩
    · change 0 < M.resolution; subst hM; exact hr
    · change M.length.x = M.size.x * M.resolution; subst hM; rfl
    · change M.length.y = M.size.y * M.resolution; subst hM; rfl
    · rw [s2]
      change M.startIndex.In _
      subst hM
      exact ⟨le_refl _, Int.ofNat_lt.2 hx, le_refl _, Int.ofNat_lt.2 hy⟩
  have l2 : M'.layers = e.layers := by change M.layers = _; subst hM; rfl
  obtain ⟨m', r1, r2, r3, r4, r5, r6, r7⟩ := loadLayers_any cv files g2 c2 hn
  have sz : m'.size = ⟨b.cellsX, b.cellsY⟩ := r3.size.trans s2
  refine ⟨m', ?_, r2, geo_congr g2 r3, r4.frameId, r4.timestamp, ?_, ?_, ?_, sz, ?_, ?_, ?_, ?_, ?_⟩
  · unfold fromImageBundle
    rw [Act.bind_ok (show Act.lift (readInfo rf files.yaml) e = (.ok _, e) by rw [hb]; rfl), Act.bind_ok e1]
    exact r1
  · rw [r4.basicLayers]; change M.basicLayers = _; subst hM; rfl
  · rw [r3.position]; change M.position = _; subst hM; rfl
  · rw [r3.resolution]; change M.resolution = _; subst hM; rfl
  · rw [r3.length]; change M.length = _; subst hM; simp
  · rw [r3.startIndex]; change M.startIndex = _; subst hM; rfl
  · rw [r5, l2]
  · intro l i hl hnl hi
    rw [r6 l i hnl]
    change M.at l i = _
    obtain ⟨a, ha⟩ := Option.isSome_iff_exists.1 ((he.mem_iff l).1 hl)
    rw [sz] at hi
    obtain ⟨h1, h2, h3, h4⟩ := hi
    have hd : M.data l = some ((Mat.const b.cellsX b.cellsY 0).setConstant NO_INFORMATION) := by
      subst hM
      simp [resize, clearAll, ha]
    rw [at_eq hd, Mat.get?_setConstant, Mat.get?_const, if_pos (by simp only at h2 h4; omega)]
    rfl
  · intro p hp i hi
    rw [r7 p hp i (by rw [s2]; rwa [sz] at hi), s2, sz]

end CostMapModel

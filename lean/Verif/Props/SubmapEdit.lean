import Verif.Props.MachineHistory

/-!
# Working on a submap: C102

A program cuts a submap out of a map, changes costs in it, and merges it back (`getSubmap`, then `addDataFrom` with overwriting), on
the machine.
-/

set_option linter.unusedSectionVars false

namespace CostMapModel
open CostMap

section
variable {K : Type} [Field K] [LinearOrder K] [IsStrictOrderedRing K] [FloorRing K]

theorem CostMap.OnGrid.congr_right {tol : K} {m o o' : CostMap K} {k : Idx} (h : OnGrid tol m o k) (hg : SameGeometry o o') :
    OnGrid tol m o' k := by
  obtain ⟨h1, h2, h3⟩ := h
  refine ⟨hg.resolution.trans h1, ?_, ?_⟩
  · simpa only [corner, hg.position, hg.size, hg.resolution] using h2
  · simpa only [corner, hg.position, hg.size, hg.resolution] using h3

theorem CostMap.OnGrid.congr_left {tol : K} {m m' o : CostMap K} {k : Idx} (h : OnGrid tol m o k) (hg : SameGeometry m m') :
    OnGrid tol m' o k := by
  obtain ⟨h1, h2, h3⟩ := h
  refine ⟨h1.trans hg.resolution.symm, ?_, ?_⟩
  · simpa only [corner, hg.position, hg.size, hg.resolution] using h2
  · simpa only [corner, hg.position, hg.size, hg.resolution] using h3

theorem CostMap.OnGrid.symm {tol : K} {m o : CostMap K} {k : Idx} (h : OnGrid tol m o k) : OnGrid tol o m ⟨-k.x, -k.y⟩ := by
  obtain ⟨h1, h2, h3⟩ := h
  refine ⟨h1.symm, ?_, ?_⟩
  · rw [← abs_neg, h1]; convert h2 using 2; push_cast; ring
  · rw [← abs_neg, h1]; convert h3 using 2; push_cast; ring

theorem CostMap.OnGrid.mono {tol tol' : K} {m o : CostMap K} {k : Idx} (h : OnGrid tol m o k) (ht : tol ≤ tol') : OnGrid tol' m o k :=
  ⟨h.res, h.x.trans ht, h.y.trans ht⟩

theorem tol_quarter {rd : K → K} {m : CostMap K} (h : m.GeoRd rd) (ht : m.Tame43) : max m.tolX m.tolY ≤ m.resolution / 4 := by
  have hr := h.res_pos
  have key : ∀ {e : K}, e ≤ 2 ^ 43 * m.resolution → e / 2 ^ 48 ≤ m.resolution / 4 := by
    intro e he
    rw [div_le_iff₀ (by positivity)]
    nlinarith
  exact max_le (key ht.x) (key ht.y)

/-- The cost at the centre of a cell of a map on the same grid. -/
theorem atPosition_on_grid {rd : K → K} (hrd : DoublePrecision rd) {m o : CostMap K} (h : m.GeoRd rd) (ht : m.Tame43) (hs : m.Small)
    (ho : o.GeoRd rd) (hto : o.Tame43) (hso : o.Small) {k : Idx} (hk : OnGrid (m.resolution / 4) m o k) {i j : Idx} (hi : i.In m.size)
    (hj : Opposite m o k i j) :
    ∃ p, m.getPositionI rd i = some (some p) ∧ o.isInsideRd rd p = true ∧
      ∀ {o' : CostMap K}, SameGeometry o o' → ∀ l, o'.atPositionI rd l p = o'.at l j := by
  have hf := found_on_grid hrd h ht ho hto hk hi
  rw [opposite_iff ho.start] at hj
  rw [if_pos hj.1] at hf
  obtain ⟨p, hp, hin, hidx, -⟩ := hf
  have t' : o.Tame := ⟨hto.x.trans (by have := ho.res_pos; nlinarith), hto.y.trans (by have := ho.res_pos; nlinarith)⟩
  refine ⟨p, ?_, hin, fun {o'} hg l => ?_⟩
  · rw [C79_getPosition rd h.start hs, hp]
  · have e : o'.getIndexI rd p = o.getIndexI rd p := by
      simp only [getIndexI, hg.length, hg.resolution, hg.position, hg.size, hg.startIndex]
    have e2 : o.getIndexI rd p = some (j, true) := by
      rw [C79_getIndex hrd ho t' hso (C79_inside_near hrd ho t' hso hin),
        show o.getIndexRd rd p = ((o.getIndexRd rd p).1, o.isInsideRd rd p) from rfl, hidx, hin, hj.2]
    unfold atPositionI
    rw [e, e2]
    rfl

/-- C102. A submap is cut out of the map; `s'` is what becomes of it when costs in it are changed, and `t` what becomes of the map
meanwhile when costs in it are changed. Merging `s'` back succeeds and changes only costs. At the centre of every cell of the submap
the map then has the cost of the changed submap, except where that is `NO_INFORMATION` and the map keeps its own. Cells whose centre
is not in the submap keep their cost. -/
theorem C102_write_back_partial {w : World K} {F : Fmt K} {rf : K → K} (hrd : DoublePrecision F.rd) (hF : IntsExact F.rd)
    (htop : 2 ^ 31 ≤ F.top) {m : CostMap K} (h : HeldI w F rf m) {pos len : Vec K} (hp : PointIn w.size pos)
    (hr : RequestOkRd F.rd m pos len) (hcen : CentreOkRd F.rd m pos len) (idx : Idx) :
    ∃ s, m.getSubmapI F.rd pos len idx = .ok (s, idx, true) ∧ s.Coherent ∧ s.layers = m.layers ∧ (⟨0, 0⟩ : Idx).In s.size ∧
      (∀ i, i.In s.size → ∃ p, s.getPositionI F.rd i = some (some p) ∧ ∀ l ∈ m.layers, s.at l i = m.atPositionI F.rd l p) ∧
      ∀ s' t : CostMap K, SameGeometry s s' → s'.Coherent → s'.layers = m.layers →
        SameGeometry m t → t.Coherent → t.layers = m.layers → (∀ l ∈ t.basicLayers, t.exists l = true) →
        ∃ t', addDataFromI F.rd s' false true true [] t = (.ok true, t') ∧ SameGeometry t t' ∧ SameMeta t t' ∧ t'.Coherent ∧
          (∀ l, t'.exists l = t.exists l) ∧
          (∀ i, i.In s.size → ∃ p, s.getPositionI F.rd i = some (some p) ∧ ∀ l ∈ m.layers,
            t'.atPositionI F.rd l p = if s'.at l i = .ok NO_INFORMATION then t.atPositionI F.rd l p else s'.at l i) ∧
          (∀ j p, j.In m.size → m.getPositionI F.rd j = some (some p) → s.isInsideRd F.rd p = false →
            ∀ l ∈ m.layers, t'.at l j = t.at l j) := by
  have hm := held_inWorld hrd hF htop h
  obtain ⟨s, e, hs⟩ := getSubmapI_safe hrd hm hp hr hcen idx
  obtain ⟨s0, k, e0, g, -, c, hlay, -, hk, -, -, hop⟩ := C78_submap_partial hrd hm.geo hm.coherent hm.tame43 hr hcen idx
  have es : s = s0 := by
    have := (C79_getSubmap hrd hm.geo hm.tame43 hm.small hr hcen idx).trans e0
    rw [e] at this
    cases this; rfl
  subst es
  have hk1 : OnGrid (s.resolution / 4) s m k := by
    rw [hk.res.symm]; exact hk.mono (tol_quarter hm.geo hm.tame43)
  have hk2 : OnGrid (m.resolution / 4) m s ⟨-k.x, -k.y⟩ := hk.symm.mono (tol_quarter hm.geo hm.tame43)
  refine ⟨s, e, c, hlay, ⟨le_refl _, hs.geo.size_x, le_refl _, hs.geo.size_y⟩, fun i hi => ?_, fun s' t gs cs ls gt ct lt hb => ?_⟩
  · obtain ⟨j, hj, hat⟩ := hop i hi
    obtain ⟨p, hp, -, hv⟩ := atPosition_on_grid hrd hs.geo hs.tame43 hs.small hm.geo hm.tame43 hm.small hk1 hi hj
    exact ⟨p, hp, fun l hl => (hat l hl).trans (hv ⟨rfl, rfl, rfl, rfl, rfl⟩ l).symm⟩
  have hs' : InWorld w F.rd s' := hs.congr gs cs
  have ht : InWorld w F.rd t := hm.congr gt ct
  have hk3 : OnGrid (t.resolution / 4) t s' ⟨-k.x, -k.y⟩ := by
    rw [gt.resolution]; exact (hk2.congr_left gt).congr_right gs
  have hex : ∀ l ∈ s'.layers, s'.exists l = true := fun l hl => (cs.mem_iff l).1 hl
  obtain ⟨t', e', g', mt', c', ex', hval⟩ := C76_merges_cell_by_cell hrd ht.geo ht.tame43 ht.coherent hs'.geo hs'.tame43 cs hk3 true
    true [] s'.layers (by simp) hex (fun l hl => .inl (hb l hl))
  have logm : ∀ j, t.logical j = m.logical j := fun j => by simp only [logical, gt.size, gt.startIndex]
  have logs : ∀ i, s'.logical i = s.logical i := fun i => by simp only [logical, gs.size, gs.startIndex]
  have sizt : t.size = m.size := gt.size
  refine ⟨t', (C79_addDataFrom hrd ht.geo.start ht.small hs'.geo hs'.tame hs'.small true true []).trans e', g', mt', c', ?_, ?_, ?_⟩
  · intro l
    rw [Bool.eq_iff_iff, ex' l]
    constructor
    · rintro (h | h)
      · exact h
      · rw [ls, ← lt] at h; exact (ct.mem_iff l).1 h
    · exact .inl
  · intro i hi
    obtain ⟨j, hj, -⟩ := hop i hi
    obtain ⟨p, hp, -, hv⟩ := atPosition_on_grid hrd hs.geo hs.tame43 hs.small hm.geo hm.tame43 hm.small hk1 hi hj
    refine ⟨p, hp, fun l hl => ?_⟩
    have gmt' : SameGeometry m t' := ⟨g'.length.trans gt.length, g'.resolution.trans gt.resolution, g'.position.trans gt.position,
      g'.size.trans gt.size, g'.startIndex.trans gt.startIndex⟩
    rw [hv gmt' l, hv gt l]
    have hji : j.In t.size := by rw [sizt]; exact hj.1
    have hopp : Opposite t s' ⟨-k.x, -k.y⟩ j i := by
      refine ⟨by rw [gs.size]; exact hi, ?_⟩
      rw [logs, logm, hj.2]
      ext <;> simp
    have hls : l ∈ s'.layers := by rw [ls]; exact hl
    obtain ⟨v, hv'⟩ := cs.at_ok (hex l hls) hopp.1
    split
    · rename_i hno
      refine ((hval l j hji).2 ?_).1 ((ct.mem_iff l).1 (by rw [lt]; exact hl))
      rintro ⟨-, -, i', v', hi', hat, hne⟩
      have : i' = i := by
        rw [← buffer_unwrap hi'.1 hs'.geo.start, ← buffer_unwrap hopp.1 hs'.geo.start, ← logical_eq_unwrap hi'.1,
          ← logical_eq_unwrap hopp.1, hi'.2, hopp.2]
      rw [this, hno] at hat
      cases hat
      exact hne rfl
    · rename_i hno
      rw [hv'] at hno ⊢
      exact (hval l j hji).1 i v hls (.inl rfl) hopp hv' (fun h => hno (by rw [h]))
  · intro j p hj hpos hout l hl
    refine ((hval l j (by rw [sizt]; exact hj)).2 ?_).1 ((ct.mem_iff l).1 (by rw [lt]; exact hl))
    rintro ⟨-, -, i', v', hi', -⟩
    have hopp : Opposite m s ⟨-k.x, -k.y⟩ j i' := by
      refine ⟨by rw [← gs.size]; exact hi'.1, ?_⟩
      rw [← logs, ← logm, hi'.2]
    obtain ⟨p', hp', hin, -⟩ := atPosition_on_grid hrd hm.geo hm.tame43 hm.small hs.geo hs.tame43 hs.small hk2 hj hopp
    rw [hp'] at hpos
    cases hpos
    rw [hin] at hout
    cases hout

end

namespace Demo

theorem edit_request : RequestOkRd toDouble tenths ⟨31 / 100, 2 / 100⟩ ⟨1 / 2, 9 / 10⟩ :=
  ⟨.inr (by decide +kernel), .inr (by decide +kernel), .inl (by decide +kernel), .inr (by decide +kernel)⟩

theorem edit_centre : CentreOkRd toDouble tenths ⟨31 / 100, 2 / 100⟩ ⟨1 / 2, 9 / 10⟩ :=
  ⟨by decide +kernel, by decide +kernel, by decide +kernel, by decide +kernel, by decide +kernel, by decide +kernel⟩

end Demo

-- The hypotheses are met: a submap of the map of C74, in which one cell is changed.
example : ∃ s, Demo.tenths.getSubmapI toDouble ⟨31 / 100, 2 / 100⟩ ⟨1 / 2, 9 / 10⟩ 0 = .ok (s, 0, true) ∧
    ∃ m' p, addDataFromI toDouble (setAt "a" ⟨0, 0⟩ 99 s).2 false true true [] Demo.tenths = (.ok true, m') ∧
      s.getPositionI toDouble ⟨0, 0⟩ = some (some p) ∧ m'.atPositionI toDouble "a" p = .ok 99 := by
  obtain ⟨s, e, hc, hl, h0, -, h⟩ := C102_write_back_partial (F := binary64) toDouble_precision toDouble_ints Demo.top64
    Demo.tenths_held (pos := ⟨31 / 100, 2 / 100⟩) (by unfold PointIn; decide +kernel) Demo.edit_request Demo.edit_centre 0
  have ha : s.exists "a" = true := (hc.mem_iff "a").1 (by rw [hl]; decide +kernel)
  obtain ⟨s', e', hv, -⟩ := C05_write_frame hc ha h0 99
  have hsh := setAt_shape "a" ⟨0, 0⟩ 99 s
  rw [e'] at hsh
  obtain ⟨m', em, -, -, -, -, hat, -⟩ := h s' Demo.tenths hsh.geo (hsh.coherent hc) (hsh.layers.trans hl) ⟨rfl, rfl, rfl, rfl, rfl⟩
    Demo.tenths_coherent rfl (by decide +kernel)
  obtain ⟨p, hp, hat⟩ := hat ⟨0, 0⟩ h0
  have := hat "a" (by decide +kernel)
  rw [hv, if_neg (by decide)] at this
  exact ⟨s, e, m', p, by rw [e']; exact em, hp, this⟩

/-- C102 without the exception for unknown cells is false: costs removed from the submap are not removed from the map. Cut out, emptied
with `clearAll` and merged back with overwriting, every cell of the map keeps its cost, though at least one of them is known. -/
theorem C102_false_clearing : ∃ s, Demo.tenths.getSubmapI toDouble ⟨31 / 100, 2 / 100⟩ ⟨1 / 2, 9 / 10⟩ 0 = .ok (s, 0, true) ∧
    ∃ m', addDataFromI toDouble s.clearAll false true true [] Demo.tenths = (.ok true, m') ∧
      ∃ i p c, i.In s.size ∧ s.getPositionI toDouble i = some (some p) ∧ c ≠ NO_INFORMATION ∧
        s.clearAll.at "a" i = .ok NO_INFORMATION ∧ m'.atPositionI toDouble "a" p = .ok c := by
  obtain ⟨s, e, hc, hl, h0, hrd, h⟩ := C102_write_back_partial (F := binary64) toDouble_precision toDouble_ints Demo.top64
    Demo.tenths_held (pos := ⟨31 / 100, 2 / 100⟩) (by unfold PointIn; decide +kernel) Demo.edit_request Demo.edit_centre 0
  have hsh := SameShape.clearAll s
  obtain ⟨m', em, -, -, -, -, hat, -⟩ := h s.clearAll Demo.tenths hsh.geo (hsh.coherent hc) (hsh.layers.trans hl)
    ⟨rfl, rfl, rfl, rfl, rfl⟩ Demo.tenths_coherent rfl (by decide +kernel)
  obtain ⟨p, hp, hat⟩ := hat ⟨0, 0⟩ h0
  have ha : s.exists "a" = true := (hc.mem_iff "a").1 (by rw [hl]; decide +kernel)
  have hno := (C06_clearAll hc).1 "a" ha ⟨0, 0⟩ h0
  have hm := hat "a" (by decide +kernel)
  rw [if_pos hno] at hm
  obtain ⟨q, hq, hqv⟩ := hrd ⟨0, 0⟩ h0
  rw [hp] at hq
  cases hq
  have hknown : (match Demo.tenths.getSubmapI toDouble ⟨31 / 100, 2 / 100⟩ ⟨1 / 2, 9 / 10⟩ 0 with
      | .ok (s, _, _) => decide (s.at "a" ⟨0, 0⟩ = .ok 0) | _ => false) = true := by decide +kernel
  have e2 : Demo.tenths.getSubmapI toDouble ⟨31 / 100, 2 / 100⟩ ⟨1 / 2, 9 / 10⟩ 0 = .ok (s, 0, true) := e
  rw [e2] at hknown
  replace hknown := of_decide_eq_true hknown
  exact ⟨s, e, m', em, ⟨0, 0⟩, p, 0, h0, hp, by decide, hno, hm.trans ((hqv "a" (by decide +kernel)).symm.trans hknown)⟩

end CostMapModel

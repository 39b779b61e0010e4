import Verif.Lemmas.RoundedSubmap
import Verif.Props.Submap
import Verif.Props.RoundedMerge

/-!
# Submaps in floating point: C78
-/

set_option linter.unusedSectionVars false

namespace CostMapModel
open CostMap
variable {K : Type} [Field K] [LinearOrder K] [IsStrictOrderedRing K] [FloorRing K]

/-- C78. Without rounding the functions are those of the exact model. -/
theorem C78_exact_arithmetic (m : CostMap K) (pos len : Vec K) (i : Idx) :
    m.submapGeometryRd id pos len = m.submapGeometry pos len ∧ m.getSubmapRd id pos len i = m.getSubmap pos len i := by
  have h : m.submapGeometryRd id pos len = m.submapGeometry pos len := by
    have e : ∀ i, positionFromIndexRd id i m.length m.position m.resolution m.size m.startIndex =
      positionFromIndex i m.length m.position m.resolution m.size m.startIndex := fun i => rfl
    have g : ∀ p : K, guardRd id p = 10 * dblEpsilon * (if 1 < |p| then |p| else 1) := by
      intro p; unfold guardRd; split <;> simp
    have e0 : ∀ p l c : K, boundPosition1Rd id p l c = boundPosition1 p l c := by
      intro p l c; unfold boundPosition1Rd boundPosition1; rw [g]; rfl
    have e1 : ∀ p, boundPositionRd id p m.length m.position = boundPosition p m.length m.position := by
      intro p; unfold boundPositionRd boundPosition; rw [e0, e0]
    have e2 : ∀ p l c r s i, indexFromPositionRd (id : K → K) p l c r s i = indexFromPosition p l c r s i :=
      fun _ _ _ _ _ _ => rfl
    unfold submapGeometryRd submapGeometry submapInformationRd submapInformation
    simp only [e, e1, e2, id, toOriginRd]
    split
    · rfl
    split
    · rfl
    split <;> rename_i h <;> rw [h]
  refine ⟨h, ?_⟩
  unfold getSubmapRd getSubmap
  rw [h, show @setGeometryRd K _ _ _ id = setGeometry from rfl]
  cases m.submapGeometry pos len with
  | none => rfl
  | some info =>
    simp only
    rcases setGeometry info.length m.resolution info.position _ with ⟨r, s⟩
    cases r <;> simp only
    cases bufferRegions info.startIndex (s.setStartIndex 0).size m.size m.startIndex with
    | none => rfl
    | some regs =>
      simp only
      rcases Act.forEach (m.copyLayer regs) m.layers (s.setStartIndex 0) with ⟨r, t⟩
      cases r <;> rfl

/-- The rows and columns of the corners of a request, cut to the map. -/
def cornerCellRd (rd : K → K) (m : CostMap K) (p : Vec K) : Idx :=
  ⟨cellRd rd (boundPosition1Rd rd p.x m.length.x m.position.x) m.length.x m.position.x m.resolution,
   cellRd rd (boundPosition1Rd rd p.y m.length.y m.position.y) m.length.y m.position.y m.resolution⟩

theorem subAxes {rd : K → K} (hrd : DoublePrecision rd) {m : CostMap K} (h : m.GeoRd rd) (ht : m.Tame43) {pos len : Vec K}
    (hr : RequestOkRd rd m pos len) (hp : CentreOkRd rd m pos len) :
    Axis.SubAxis rd m.size.x m.position.x m.length.x m.resolution (extent m.size.x m.position.x m.resolution) pos.x
      (highRd rd pos len).x (lowRd rd pos len).x (cornerCellRd rd m (highRd rd pos len)).x
      (cornerCellRd rd m (lowRd rd pos len)).x ∧
    Axis.SubAxis rd m.size.y m.position.y m.length.y m.resolution (extent m.size.y m.position.y m.resolution) pos.y
      (highRd rd pos len).y (lowRd rd pos len).y (cornerCellRd rd m (highRd rd pos len)).y
      (cornerCellRd rd m (lowRd rd pos len)).y := by
  have tx := tolX_eq m
  have ty := tolY_eq m
  obtain ⟨p1, p2, p3, p4, p5, p6⟩ := hp
  rw [tx] at p1 p3 p5
  rw [ty] at p2 p4 p6
  exact ⟨(axis43_x h ht).sub_axis hrd ht.x hr.high_x hr.low_x (p1.trans (by linarith)) (by linarith) (by linarith),
    (axis43_y h ht).sub_axis hrd ht.y hr.high_y hr.low_y (p2.trans (by linarith)) (by linarith) (by linarith)⟩

/-- The geometry of the submap, as computed. -/
theorem submapGeometryRd_eq {rd : K → K} (hrd : DoublePrecision rd) {m : CostMap K} (h : m.GeoRd rd) (ht : m.Tame43)
    {pos len : Vec K} (hr : RequestOkRd rd m pos len) (hp : CentreOkRd rd m pos len) :
    let T := cornerCellRd rd m (highRd rd pos len)
    let B := cornerCellRd rd m (lowRd rd pos len)
    ∃ ri, m.submapGeometryRd rd pos len = some ⟨bufferIdx T m.size m.startIndex, B - T + Idx.ones,
      ⟨Axis.subPosRd rd T.x (B.x - T.x + 1) m.length.x m.position.x m.resolution,
       Axis.subPosRd rd T.y (B.y - T.y + 1) m.length.y m.position.y m.resolution⟩,
      ⟨rd (((B.x - T.x + 1 : Int) : K) * m.resolution), rd (((B.y - T.y + 1 : Int) : K) * m.resolution)⟩, ri⟩ := by
  intro T B
  obtain ⟨sx, sy⟩ := subAxes hrd h ht hr hp
  obtain ⟨a1, a2, -⟩ := (axis43_x h ht).cut hrd hr.high_x
  obtain ⟨b1, b2, -⟩ := (axis43_y h ht).cut hrd hr.high_y
  obtain ⟨c1, c2, -⟩ := (axis43_x h ht).cut hrd hr.low_x
  obtain ⟨d1, d2, -⟩ := (axis43_y h ht).cut hrd hr.low_y
  have hT : T.In m.size := ⟨sx.t0, sx.tb.trans_lt sx.bn, sy.t0, sy.tb.trans_lt sy.bn⟩
  have hB : B.In m.size := ⟨sx.t0.trans sx.tb, sx.bn, sy.t0.trans sy.tb, sy.bn⟩
  have e1 : indexFromPositionRd rd (boundPositionRd rd (highRd rd pos len) m.length m.position) m.length m.position
      m.resolution m.size m.startIndex = (bufferIdx T m.size m.startIndex, true) := by
    unfold indexFromPositionRd withinMapRd boundPositionRd
    refine Prod.ext rfl ?_
    simp only [Bool.and_eq_true, decide_eq_true_eq]
    exact ⟨⟨⟨a1, b1⟩, a2⟩, b2⟩
  have e2 : indexFromPositionRd rd (boundPositionRd rd (lowRd rd pos len) m.length m.position) m.length m.position
      m.resolution m.size m.startIndex = (bufferIdx B m.size m.startIndex, true) := by
    unfold indexFromPositionRd withinMapRd boundPositionRd
    refine Prod.ext rfl ?_
    simp only [Bool.and_eq_true, decide_eq_true_eq]
    exact ⟨⟨⟨c1, d1⟩, c2⟩, d2⟩
  have u1 := unwrap_buffer hT h.start
  have u2 := unwrap_buffer hB h.start
  have e3 : positionFromIndexRd rd (bufferIdx T m.size m.startIndex) m.length m.position m.resolution m.size m.startIndex =
      some ⟨centreRd rd T.x m.length.x m.position.x m.resolution, centreRd rd T.y m.length.y m.position.y m.resolution⟩ := by
    unfold positionFromIndexRd
    rw [if_pos (inRange_iff.mpr (bufferIdx_in hT h.start)), u1]
  have hin : withinMapRd rd pos ⟨rd (((B.x - T.x + 1 : Int) : K) * m.resolution), rd (((B.y - T.y + 1 : Int) : K) * m.resolution)⟩
      ⟨Axis.subPosRd rd T.x (B.x - T.x + 1) m.length.x m.position.x m.resolution,
       Axis.subPosRd rd T.y (B.y - T.y + 1) m.length.y m.position.y m.resolution⟩ = true := by
    unfold withinMapRd
    simp only [Bool.and_eq_true, decide_eq_true_eq]
    exact ⟨⟨⟨sx.inside.1, sy.inside.1⟩, sx.inside.2⟩, sy.inside.2⟩
  simp only [highRd] at e1
  simp only [lowRd] at e2
  unfold submapGeometryRd submapInformationRd
  simp only [e1, e2, e3, u1, u2, Bool.not_true, Bool.false_eq_true, if_false]
  have hsx : (B - T + Idx.ones).x = B.x - T.x + 1 := rfl
  have hsy : (B - T + Idx.ones).y = B.y - T.y + 1 := rfl
  simp only [hsx, hsy]
  have e4 : (indexFromPositionRd rd pos ⟨rd (((B.x - T.x + 1 : Int) : K) * m.resolution), rd (((B.y - T.y + 1 : Int) : K) * m.resolution)⟩
      ⟨Axis.subPosRd rd T.x (B.x - T.x + 1) m.length.x m.position.x m.resolution,
       Axis.subPosRd rd T.y (B.y - T.y + 1) m.length.y m.position.y m.resolution⟩ m.resolution (B - T + Idx.ones) 0).2 = true := hin
  simp only [Axis.subPosRd] at e4 ⊢
  rw [e4]
  exact ⟨_, rfl⟩

/-- C78 (partial). `getSubmap` in floating point, for a request whose corners are well inside or well outside of the map,
whose position is well inside of both, and for which grid_map's guard margin is of the right size. The call succeeds; the
submap has the grid of the map, is up to the tolerance the smallest block of cells around the part of the request that
lies in the map, has the same layers, frame and time stamp, and every cell of every layer holds the cost of the cell of the
map at its place.

Missing: requests with a corner near the border of the map, in particular the request of the whole map, and large requests
around a point near the origin of the frame; for these `C78_false_whole_map` and `C78_false_sticking_out` give
counterexamples. -/
theorem C78_submap_partial {rd : K → K} (hrd : DoublePrecision rd) {m : CostMap K} (h : m.GeoRd rd) (hc : m.Coherent)
    (ht : m.Tame43) {pos len : Vec K} (hr : RequestOkRd rd m pos len) (hp : CentreOkRd rd m pos len) (idx : Idx) :
    ∃ s k, m.getSubmapRd rd pos len idx = .ok (s, idx, true) ∧ s.GeoRd rd ∧ s.Tame ∧ s.Coherent ∧ s.layers = m.layers ∧
      SameMeta m s ∧ OnGrid (max m.tolX m.tolY) s m k ∧ IsCut m s (lowRd rd pos len) (highRd rd pos len) ∧
      s.isInsideRd rd pos = true ∧
      ∀ i : Idx, i.In s.size → ∃ j, Opposite s m k i j ∧ ∀ l ∈ m.layers, s.at l i = m.at l j := by
  obtain ⟨sx, sy⟩ := subAxes hrd h ht hr hp
  obtain ⟨ri, hinfo⟩ := submapGeometryRd_eq hrd h ht hr hp
  set T := cornerCellRd rd m (highRd rd pos len) with hTd
  set B := cornerCellRd rd m (lowRd rd pos len) with hBd
  have hT : T.In m.size := ⟨sx.t0, by have := sx.tb; have := sx.bn; omega, sy.t0, by have := sy.tb; have := sy.bn; omega⟩
  set sz := B - T + Idx.ones with hsz
  have szx : sz.x = B.x - T.x + 1 := rfl
  have szy : sz.y = B.y - T.y + 1 := rfl
  have x1 := sx.t0; have x2 := sx.tb; have x3 := sx.bn
  have y1 := sy.t0; have y2 := sy.tb; have y3 := sy.bn
  obtain ⟨regs, hreg, hok⟩ := bufferRegions_spec (sub := sz) h.start hT (by omega) (by omega) (by omega) (by omega)
  set s0 : CostMap K := ((((CostMap.new m.layers).setBasicLayers m.basicLayers).setTimestamp
    m.timestamp).setFrameId m.frameId) with hs0
  set P : Vec K := ⟨Axis.subPosRd rd T.x (B.x - T.x + 1) m.length.x m.position.x m.resolution,
       Axis.subPosRd rd T.y (B.y - T.y + 1) m.length.y m.position.y m.resolution⟩ with hP
  set L : Vec K := ⟨rd (((B.x - T.x + 1 : Int) : K) * m.resolution), rd (((B.y - T.y + 1 : Int) : K) * m.resolution)⟩
    with hL
  set s1 : CostMap K := { (s0.resize sz).clearAll with
      resolution := m.resolution, length := L, position := P, startIndex := 0 } with hs1
  have hset : setGeometryRd rd L m.resolution P s0 = (.ok (), s1) := by
    unfold setGeometryRd
    rw [if_neg (not_not.mpr sx.len_pos), if_neg (not_not.mpr sy.len_pos), if_neg (not_not.mpr h.res_pos)]
    simp only [hL, sx.cells, sy.cells]
    rfl
  have hs0c : s0.Coherent := by
    have h0 : (CostMap.new m.layers : CostMap K).Coherent := CostMap.new_coherent hc.nodup
    exact ⟨h0.nodup, h0.mem_iff, h0.dims⟩
  have hs1c : s1.Coherent := by
    have := setGeometryRd_coherent hrd L m.resolution P s0 hs0c
    rwa [hset] at this
  have hdims : ∀ l ∈ m.layers, ∃ dst, s1.data l = some dst ∧ HasDims dst sz := by
    intro l hl
    obtain ⟨a, ha⟩ := Option.isSome_iff_exists.mp ((hs1c.mem_iff l).mp hl)
    exact ⟨a, ha, hs1c.dims l a ha⟩
  obtain ⟨s, e, hshape, -, hat⟩ := copyLayers_spec hc hok m.layers (fun l h => h) hdims
  have e0 : s1.setStartIndex 0 = s1 := rfl
  have gsz : s.size = sz := hshape.geo.size
  have gst : s.startIndex = 0 := hshape.geo.startIndex
  have gp : s.position = P := hshape.geo.position
  have gl : s.length = L := hshape.geo.length
  have gr : s.resolution = m.resolution := hshape.geo.resolution
  have tx := tolX_eq m
  have ty := tolY_eq m
  have ux := (axis43_x h ht).unit_nonneg
  have uy := (axis43_y h ht).unit_nonneg
  refine ⟨s, T, ?_, ?_, ?_, hshape.coherent hs1c, hshape.layers,
    ⟨hshape.info.frameId, hshape.info.timestamp, hshape.info.basicLayers⟩, ?_, ?_, ?_, ?_⟩
  · simp only [getSubmapRd, hinfo]
    rw [← hs0, hset]
    simp only [e0, show s1.size = sz from rfl, hreg, e]
  · refine ⟨by rw [gr]; exact h.res_pos, by rw [gsz]; omega, by rw [gsz]; omega, by rw [gl, gsz, gr]; rfl,
      by rw [gl, gsz, gr]; rfl, ?_⟩
    rw [gst, gsz]
    exact ⟨le_refl _, by show 0 < sz.x; omega, le_refl _, by show 0 < sz.y; omega⟩
  · refine ⟨?_, ?_⟩
    · rw [gsz, gp, gr]; exact sx.axis.tame
    · rw [gsz, gp, gr]; exact sy.axis.tame
  · refine ⟨gr.symm, ?_, ?_⟩
    · have := sx.grid
      simp only [corner, gsz, gp, gr]
      refine this.trans ((?_ : _ ≤ m.tolX).trans (le_max_left _ _))
      rw [tx]; linarith
    · have := sy.grid
      simp only [corner, gsz, gp, gr]
      refine this.trans ((?_ : _ ≤ m.tolY).trans (le_max_right _ _))
      rw [ty]; linarith
  · refine ⟨?_, ?_⟩
    · have := sx.cut
      rw [gsz, gp, tx, show (2 : K) * (32 * (extent m.size.x m.position.x m.resolution / 2 ^ 53)) =
        64 * (extent m.size.x m.position.x m.resolution / 2 ^ 53) by ring]
      exact this
    · have := sy.cut
      rw [gsz, gp, ty, show (2 : K) * (32 * (extent m.size.y m.position.y m.resolution / 2 ^ 53)) =
        64 * (extent m.size.y m.position.y m.resolution / 2 ^ 53) by ring]
      exact this
  · unfold isInsideRd withinMapRd
    rw [gl, gp]
    simp only [Bool.and_eq_true, decide_eq_true_eq]
    exact ⟨⟨⟨sx.inside.1, sy.inside.1⟩, sx.inside.2⟩, sy.inside.2⟩
  · intro i hi
    have hsl : s.logical i = i := by
      rw [logical_eq_unwrap hi, gst]
      unfold unwrapIdx
      simp
    have hi' : i.In sz := by rwa [gsz] at hi
    refine ⟨bufferIdx (T + i) m.size m.startIndex, ?_, fun l hl => hat l hl i hi'⟩
    rw [opposite_iff h.start, hsl]
    obtain ⟨i1, i2, i3, i4⟩ := hi'
    have e1 : (i + T).x = i.x + T.x := rfl
    have e2 : (i + T).y = i.y + T.y := rfl
    refine ⟨⟨by omega, by omega, by omega, by omega⟩, ?_⟩
    rw [show i + T = T + i by ext <;> simp [add_comm]]

namespace Demo

/-- A map of `n` x `n'` cells of 0.1 around `(c, 0)` in `double` arithmetic, its only layer 9 everywhere. -/
def dr (n n' : Nat) (c : ℚ) : CostMap ℚ :=
  let m1 := (CostMap.setGeometryRd toDouble ⟨toDouble (n / 10), toDouble (n' / 10)⟩ (toDouble (1 / 10))
    ⟨toDouble c, 0⟩ (CostMap.new [])).2
  (CostMap.add "a" (Mat.const n n' 9) m1).2

theorem dr_coherent (n n' : Nat) (c : ℚ) : (dr n n' c).Coherent := by
  have h0 : (CostMap.new [] : CostMap ℚ).Coherent := CostMap.new_coherent (by simp)
  exact CostMap.add_coherent _ _ _ (setGeometryRd_coherent toDouble_precision _ _ _ _ h0)

end Demo

/-- A request for 0.5 x 0.9 around (0.21, 0.02) of a map of 7 x 7 cells of 0.1 around the origin; it sticks out of the map at the
top of the rows and at both ends of the columns. -/
example : ∃ s k, (Demo.dr 7 7 0).getSubmapRd toDouble ⟨21 / 100, 2 / 100⟩ ⟨1 / 2, 9 / 10⟩ 0 = .ok (s, 0, true) ∧
    s.Tame ∧ OnGrid (max (Demo.dr 7 7 0).tolX (Demo.dr 7 7 0).tolY) s (Demo.dr 7 7 0) k ∧ s.layers = ["a"] := by
  have h : (Demo.dr 7 7 0).GeoRd toDouble :=
    ⟨by decide +kernel, by decide +kernel, by decide +kernel, by decide +kernel, by decide +kernel, by decide +kernel⟩
  have ht : (Demo.dr 7 7 0).Tame43 := ⟨by decide +kernel, by decide +kernel⟩
  have hr : RequestOkRd toDouble (Demo.dr 7 7 0) ⟨21 / 100, 2 / 100⟩ ⟨1 / 2, 9 / 10⟩ :=
    ⟨.inr (by decide +kernel), .inr (by decide +kernel), .inl (by decide +kernel), .inr (by decide +kernel)⟩
  have hp : CentreOkRd toDouble (Demo.dr 7 7 0) ⟨21 / 100, 2 / 100⟩ ⟨1 / 2, 9 / 10⟩ :=
    ⟨by decide +kernel, by decide +kernel, by decide +kernel, by decide +kernel, by decide +kernel, by decide +kernel⟩
  obtain ⟨s, k, e, -, t, -, l, -, g, -⟩ := C78_submap_partial toDouble_precision h (Demo.dr_coherent 7 7 0) ht hr hp 0
  exact ⟨s, k, e, t, g, l.trans (by decide +kernel)⟩

/-- D32. C78 is false of the code for the request of the whole map: a map of 3 x 3 cells of 0.1 around (-0.1, 0) has no
submap of its own length around its own position. -/
theorem C78_false_whole_map :
    (Demo.dr 3 3 (-1 / 10)).GeoRd toDouble ∧ (Demo.dr 3 3 (-1 / 10)).Coherent ∧
    (Demo.dr 3 3 (-1 / 10)).isInsideRd toDouble (Demo.dr 3 3 (-1 / 10)).position = true ∧
    ∃ s, (Demo.dr 3 3 (-1 / 10)).getSubmapRd toDouble (Demo.dr 3 3 (-1 / 10)).position (Demo.dr 3 3 (-1 / 10)).length 0 =
      .ok (s, 0, false) := by
  refine ⟨⟨by decide +kernel, by decide +kernel, by decide +kernel, by decide +kernel, by decide +kernel,
    by decide +kernel⟩, Demo.dr_coherent _ _ _, by decide +kernel, ?_⟩
  have : (Demo.dr 3 3 (-1 / 10)).submapGeometryRd toDouble (Demo.dr 3 3 (-1 / 10)).position
      (Demo.dr 3 3 (-1 / 10)).length = none := by decide +kernel
  unfold getSubmapRd
  rw [this]
  exact ⟨_, rfl⟩

/-- D32. C78 is false of the code for a request that sticks out of the map near the origin of the frame: a map of 161 x 3
cells of 0.1 with its lower end at the origin, and a request of 16.11 x 0.1 around its centre, so half a centimetre beyond
each end of the rows. The guard margin is smaller than the rounding errors. -/
theorem C78_false_sticking_out :
    (Demo.dr 161 3 (805 / 100)).GeoRd toDouble ∧ (Demo.dr 161 3 (805 / 100)).Coherent ∧
    CentreOkRd toDouble (Demo.dr 161 3 (805 / 100)) (Demo.dr 161 3 (805 / 100)).position ⟨1611 / 100, 1 / 10⟩ ∧
    ∃ s, (Demo.dr 161 3 (805 / 100)).getSubmapRd toDouble (Demo.dr 161 3 (805 / 100)).position ⟨1611 / 100, 1 / 10⟩ 0 =
      .ok (s, 0, false) := by
  refine ⟨⟨by decide +kernel, by decide +kernel, by decide +kernel, by decide +kernel, by decide +kernel,
    by decide +kernel⟩, Demo.dr_coherent _ _ _, ⟨by decide +kernel, by decide +kernel, by decide +kernel,
    by decide +kernel, by decide +kernel, by decide +kernel⟩, ?_⟩
  have : (Demo.dr 161 3 (805 / 100)).submapGeometryRd toDouble (Demo.dr 161 3 (805 / 100)).position
      ⟨1611 / 100, 1 / 10⟩ = none := by decide +kernel
  unfold getSubmapRd
  rw [this]
  exact ⟨_, rfl⟩

end CostMapModel

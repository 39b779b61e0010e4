import Verif.Model.MachineShapes
import Verif.Props.Machine
import Verif.Props.RoundedShapes

/-!
# Circles, ellipses, polygons and submaps in 32-bit integers: C79

On maps with at most `2^29` rows and columns the shape iterators and `getSubmap` compute in `int`s what `Model/RoundedShapes.lean`
and `Model/RoundedSubmap.lean` compute in unbounded integers, so C78 and C80 hold of them too.
-/

set_option linter.unusedSectionVars false

namespace CostMapModel
open CostMap
variable {K : Type} [Field K] [LinearOrder K] [IsStrictOrderedRing K] [FloorRing K]

/-- The states of a shape iterator of the map `m`. -/
structure ShapeIter.Of (m : CostMap K) (it : ShapeIter K) : Prop where
  length : it.length = m.length
  position : it.position = m.position
  resolution : it.resolution = m.resolution
  size : it.size = m.size
  start : it.startIndex = m.startIndex
  inner : it.internal.Ok

namespace ShapeIter

theorem isInsideI_eq (rd : K → K) {m : CostMap K} (hs : m.startIndex.In m.size) (hm : m.Small) {it : ShapeIter K}
    (h : it.Of m) (s : SubmapIter) : it.isInsideI rd s = it.isInsideRd rd s := by
  have e := C79_getPosition rd hs hm s.index
  unfold getPositionI getPositionRd at e
  unfold isInsideI isInsideRd
  rw [h.length, h.position, h.resolution, h.size, h.start, e]
  rcases positionFromIndexRd rd s.index m.length m.position m.resolution m.size m.startIndex with - | p <;> rfl

theorem skipI_eq (rd : K → K) {m : CostMap K} (hs : m.startIndex.In m.size) (hm : m.Small) {it : ShapeIter K} (h : it.Of m)
    (n : Nat) : ∀ s : SubmapIter, s.Ok → it.skipI rd n s = it.skipRd rd n s ∧ ∀ s', it.skipRd rd n s = .ok s' → s'.Ok := by
  induction n with
  | zero => intro s _; exact ⟨rfl, fun s' e => by cases e⟩
  | succ n ih =>
    intro s hok
    unfold skipI skipRd
    by_cases hp : s.pastEnd = true
    · rw [if_pos hp, if_pos hp]
      exact ⟨rfl, fun s' e => by cases e; exact hok⟩
    · rw [if_neg hp, if_neg hp, isInsideI_eq rd hs hm h]
      obtain ⟨e1, e2⟩ := SubmapIter.nextI_eq hok
      obtain ⟨f1, f2⟩ := ih _ e2
      rw [e1]
      rcases it.isInsideRd rd s with b | _ | _ | _ | _
      · cases b
        · exact ⟨f1, f2⟩
        · exact ⟨rfl, fun s' e => by cases e; exact hok⟩
      all_goals exact ⟨rfl, fun s' e => by cases e⟩

theorem nextI_eq (rd : K → K) {m : CostMap K} (hs : m.startIndex.In m.size) (hm : m.Small) {it : ShapeIter K} (h : it.Of m) :
    it.nextI rd = it.nextRd rd ∧ ∀ it', it.nextRd rd = .ok it' → it'.Of m := by
  obtain ⟨e1, e2⟩ := SubmapIter.nextI_eq h.inner
  unfold nextI nextRd
  rw [e1]
  simp only [Res.ofOption, Res.bind]
  by_cases hp : it.internal.next.pastEnd = true
  · rw [if_pos hp, if_pos hp]
    exact ⟨rfl, fun it' e => by cases e; exact ⟨h.1, h.2, h.3, h.4, h.5, e2⟩⟩
  · rw [if_neg hp, if_neg hp]
    obtain ⟨f1, f2⟩ := skipI_eq rd hs hm h it.fuel _ e2
    rw [f1]
    refine ⟨rfl, fun it' e => ?_⟩
    rcases hk : it.skipRd rd it.fuel it.internal.next with s | _ | _ | _ | _ <;> rw [hk] at e <;> cases e
    exact ⟨h.1, h.2, h.3, h.4, h.5, f2 _ hk⟩

theorem newWithI_eq (rd : K → K) {m : CostMap K} (hs : m.startIndex.In m.size) (hm : m.Small) (shape : Vec K → Bool)
    {tl sz : Idx} (htl : tl.In m.size) (hx : sz.x ≤ 2 ^ 29) (hy : sz.y ≤ 2 ^ 29) :
    newWithI rd m shape tl sz = newWithRd rd m shape tl sz ∧ ∀ it, newWithRd rd m shape tl sz = .ok it → it.Of m := by
  have hof : ShapeIter.Of m (⟨m.length, m.position, m.resolution, m.size, m.startIndex, shape, SubmapIter.new m tl sz⟩) := by
    refine ⟨rfl, rfl, rfl, rfl, rfl, hs, hm.x, hm.y, htl, hx, hy, ⟨?_, ?_⟩, ⟨?_, ?_⟩⟩
    all_goals simp [SubmapIter.new]
  unfold newWithI newWithRd
  simp only
  rw [isInsideI_eq rd hs hm hof]
  obtain ⟨e1, e2⟩ := nextI_eq rd hs hm hof
  rw [e1]
  rcases ShapeIter.isInsideRd rd _ _ with b | _ | _ | _ | _
  · cases b
    · exact ⟨rfl, e2⟩
    · exact ⟨rfl, fun it e => by cases e; exact hof⟩
  all_goals exact ⟨rfl, fun it e => by cases e⟩

theorem visitsI (rd : K → K) {m : CostMap K} (hs : m.startIndex.In m.size) (hm : m.Small) {it : ShapeIter K} (h : it.Of m)
    {xs : List Idx} (hv : Visits (opsRd rd) it xs) : Visits (opsI rd) it xs :=
  visits_transfer (I := opsRd rd) (J := opsI rd) (Of m) rfl rfl (fun _ hs' _ => nextI_eq rd hs hm hs') hv h

end ShapeIter

/-! ## Corners -/

/-- The index of a corner of the box of a shape. -/
theorem cornerI {rd : K → K} (hrd : DoublePrecision rd) {m : CostMap K} (h : m.GeoRd rd) (ht : m.Tame43) (hm : m.Small)
    {p : Vec K} (hx : CornerOk m.size.x m.resolution m.position.x p.x) (hy : CornerOk m.size.y m.resolution m.position.y p.y) :
    m.getIndexI rd (boundPositionRd rd p m.length m.position) =
      some (m.getIndexRd rd (boundPositionRd rd p m.length m.position)) ∧
    (m.getIndexRd rd (boundPositionRd rd p m.length m.position)).1.In m.size := by
  obtain ⟨a1, a2, -⟩ := (axis43_x h ht).cut hrd hx
  obtain ⟨b1, b2, -⟩ := (axis43_y h ht).cut hrd hy
  refine ⟨indexFromPositionI_inside hrd (axis43_x h ht) (axis43_y h ht) hm.x hm.y h.start ?_, ?_⟩
  · unfold withinMapRd boundPositionRd
    simp only [Bool.and_eq_true, decide_eq_true_eq]
    exact ⟨⟨⟨a1, b1⟩, a2⟩, b2⟩
  · rw [cornerRd_index]
    exact bufferIdx_in (cornerRd_in hrd h ht hx hy) h.start

theorem boxI {rd : K → K} (hrd : DoublePrecision rd) {m : CostMap K} (h : m.GeoRd rd) (ht : m.Tame43) (hm : m.Small)
    {lo hi : Vec K} (hb : BoxOkRd m lo hi) :
    boxFromBufferIndicesI rd m hi lo = some (boxFromBufferIndicesRd rd m hi lo) ∧
      (boxFromBufferIndicesRd rd m hi lo).1.In m.size ∧ (boxFromBufferIndicesRd rd m hi lo).2.x ≤ 2 ^ 29 ∧
      (boxFromBufferIndicesRd rd m hi lo).2.y ≤ 2 ^ 29 := by
  obtain ⟨e1, i1⟩ := cornerI hrd h ht hm hb.high_x hb.high_y
  obtain ⟨e2, i2⟩ := cornerI hrd h ht hm hb.low_x hb.low_y
  unfold boxFromBufferIndicesI boxFromBufferIndicesRd
  rw [e1, e2]
  simp only [Option.bind_some]
  generalize (m.getIndexRd rd (boundPositionRd rd hi m.length m.position)).1 = t at i1
  generalize (m.getIndexRd rd (boundPositionRd rd lo m.length m.position)).1 = b at i2
  obtain ⟨t1, t2, t3, t4⟩ := i1
  obtain ⟨b1, b2, b3, b4⟩ := i2
  have := hm.x; have := hm.y
  rw [both_eq (i32_eq (z := b.x - t.x) (by omega) (by omega)) (i32_eq (z := b.y - t.y) (by omega) (by omega)), Option.bind_some,
    both_eq (i32_eq (z := b.x - t.x + 1) (by omega) (by omega)) (i32_eq (z := b.y - t.y + 1) (by omega) (by omega))]
  refine ⟨rfl, ⟨t1, t2, t3, t4⟩, ?_, ?_⟩
  · show b.x - t.x + 1 ≤ 2 ^ 29; omega
  · show b.y - t.y + 1 ≤ 2 ^ 29; omega

/-! ## The iterators -/

/-- C79. The circle iterator does not overflow: it is constructed as in unbounded integers, and shows a loop the same cells. The
map may be moved, and the seam of its buffer may run through the circle. -/
theorem C79_circle {rd : K → K} (hrd : DoublePrecision rd) {m : CostMap K} (h : m.GeoRd rd) (ht : m.Tame43) (hm : m.Small)
    {center : Vec K} {radius : K} (hb : BoxOkRd m (circleLow rd center radius) (circleHigh rd center radius)) :
    circleIterI rd m center radius = circleIterRd rd m center radius ∧
      ∀ it xs, circleIterRd rd m center radius = .ok it → Visits (ShapeIter.opsRd rd) it xs →
        Visits (ShapeIter.opsI rd) it xs := by
  obtain ⟨e, i, x, y⟩ := boxI hrd h ht hm hb
  unfold circleIterI circleIterRd
  unfold circleLow circleHigh at e i x y
  rw [e]
  obtain ⟨f, g⟩ := ShapeIter.newWithI_eq rd h.start hm (circleShapeRd rd center radius) i x y
  exact ⟨f, fun it xs e' hv => ShapeIter.visitsI rd h.start hm (g it e') hv⟩

/-- C79. The ellipse iterator does not overflow. -/
theorem C79_ellipse {rd : K → K} (hrd : DoublePrecision rd) {m : CostMap K} (h : m.GeoRd rd) (ht : m.Tame43) (hm : m.Small)
    {sqrt : K → K} {center len : Vec K} {c s : K}
    (hb : BoxOkRd m (ellipseLow rd sqrt center len c s) (ellipseHigh rd sqrt center len c s)) :
    ellipseIterI rd sqrt m center len c s = ellipseIterRd rd sqrt m center len c s ∧
      ∀ it xs, ellipseIterRd rd sqrt m center len c s = .ok it → Visits (ShapeIter.opsRd rd) it xs →
        Visits (ShapeIter.opsI rd) it xs := by
  obtain ⟨e, i, x, y⟩ := boxI hrd h ht hm hb
  unfold ellipseIterI ellipseIterRd
  unfold ellipseLow ellipseHigh ellipseHalfRd at e i x y
  simp only at e ⊢
  rw [e]
  obtain ⟨f, g⟩ := ShapeIter.newWithI_eq rd h.start hm (ellipseShapeRd rd center len c s) i x y
  exact ⟨f, fun it xs e' hv => ShapeIter.visitsI rd h.start hm (g it e') hv⟩

/-- C79. The polygon iterator does not overflow. -/
theorem C79_polygon {rd : K → K} (hrd : DoublePrecision rd) {m : CostMap K} (h : m.GeoRd rd) (ht : m.Tame43) (hm : m.Small)
    {vs : List (Vec K)} {lo hi : Vec K} (hbox : IsBox vs lo hi) (hb : BoxOkRd m lo hi) :
    polygonIterI rd m vs = polygonIterRd rd m vs ∧
      ∀ it xs, polygonIterRd rd m vs = .ok it → Visits (ShapeIter.opsRd rd) it xs → Visits (ShapeIter.opsI rd) it xs := by
  cases vs with
  | nil => obtain ⟨v, hv, -⟩ := hbox.hi_x; cases hv
  | cons v t =>
    obtain ⟨ehi, elo⟩ := foldl_box hbox
    obtain ⟨e1, i1⟩ := cornerI hrd h ht hm hb.high_x hb.high_y
    obtain ⟨e2, i2⟩ := cornerI hrd h ht hm hb.low_x hb.low_y
    unfold polygonIterI polygonIterRd
    simp only [ehi, elo, e1, e2, Res.ofOption, Res.bind]
    generalize (m.getIndexRd rd (boundPositionRd rd hi m.length m.position)).1 = a at i1
    generalize (m.getIndexRd rd (boundPositionRd rd lo m.length m.position)).1 = b at i2
    have ua := unwrapIdx_in i1 h.start
    have ub := unwrapIdx_in i2 h.start
    obtain ⟨n, hn⟩ : ∃ n, n = submapSizeFromCorners a b m.size m.startIndex := ⟨_, rfl⟩
    have hsz : submapSizeFromCornersI a b m.size m.startIndex = some n ∧ n.x ≤ 2 ^ 29 ∧ n.y ≤ 2 ^ 29 := by
      rw [hn]
      unfold submapSizeFromCornersI submapSizeFromCorners
      rw [unwrapI_eq (.of_in h.start hm.x hm.y i1), Option.bind_some, unwrapI_eq (.of_in h.start hm.x hm.y i2),
        Option.bind_some]
      generalize unwrapIdx a m.size m.startIndex = t at ua
      generalize unwrapIdx b m.size m.startIndex = w at ub
      obtain ⟨t1, t2, t3, t4⟩ := ua
      obtain ⟨b1, b2, b3, b4⟩ := ub
      have := hm.x; have := hm.y
      rw [both_eq (i32_eq (z := w.x - t.x) (by omega) (by omega)) (i32_eq (z := w.y - t.y) (by omega) (by omega)),
        Option.bind_some,
        both_eq (i32_eq (z := w.x - t.x + 1) (by omega) (by omega)) (i32_eq (z := w.y - t.y + 1) (by omega) (by omega))]
      refine ⟨rfl, ?_, ?_⟩
      · show w.x - t.x + 1 ≤ 2 ^ 29; omega
      · show w.y - t.y + 1 ≤ 2 ^ 29; omega
    rw [← hn, hsz.1]
    obtain ⟨f, g⟩ := ShapeIter.newWithI_eq rd h.start hm (polygonInsideRd rd (v :: t)) i1 hsz.2.1 hsz.2.2
    exact ⟨f, fun it xs e' hv => ShapeIter.visitsI rd h.start hm (g it e') hv⟩

/-! ## Submaps -/

theorem bufferRegionsI_eq {idx sub size start : Idx} (hs : start.In size) (hi : idx.In size) (hx : size.x ≤ 2 ^ 29)
    (hy : size.y ≤ 2 ^ 29) (sx : 0 < sub.x ∧ sub.x ≤ 2 ^ 29) (sy : 0 < sub.y ∧ sub.y ≤ 2 ^ 29) :
    bufferRegionsI idx sub size start = some (bufferRegions idx sub size start) := by
  have hu := unwrapIdx_in hi hs
  unfold bufferRegionsI bufferRegions
  rw [unwrapI_eq (.of_in hs hx hy hi), Option.bind_some]
  simp only
  generalize unwrapIdx idx size start = u at hu
  obtain ⟨u1, u2, u3, u4⟩ := hu
  obtain ⟨i1, i2, i3, i4⟩ := hi
  rw [both_eq (i32_eq (z := u.x + sub.x) (by omega) (by omega)) (i32_eq (z := u.y + sub.y) (by omega) (by omega)),
    Option.bind_some]
  simp only
  split
  · rfl
  · rw [both_eq (i32_eq (z := idx.x + sub.x) (by omega) (by omega)) (i32_eq (z := idx.y + sub.y) (by omega) (by omega)),
      Option.bind_some,
      both_eq (i32_eq (z := idx.x + sub.x - 1) (by omega) (by omega)) (i32_eq (z := idx.y + sub.y - 1) (by omega) (by omega)),
      Option.bind_some, both_eq (wrapI_eq (i := idx.x + sub.x - 1) (by omega) (by omega) (by omega) (by omega))
        (wrapI_eq (i := idx.y + sub.y - 1) (by omega) (by omega) (by omega) (by omega)), Option.bind_some]
    have a1 : I32.sub size.x idx.x = some (size.x - idx.x) := i32_eq (by omega) (by omega)
    have a2 : I32.sub size.y idx.y = some (size.y - idx.y) := i32_eq (by omega) (by omega)
    have a3 : I32.sub sub.x (size.x - idx.x) = some (sub.x - (size.x - idx.x)) := i32_eq (by omega) (by omega)
    have a4 : I32.sub sub.y (size.y - idx.y) = some (sub.y - (size.y - idx.y)) := i32_eq (by omega) (by omega)
    simp only [a1, a2, a3, a4, Option.bind_some]
    rw [show bound2 wrap1 (idx + sub - Idx.ones) size = ⟨wrap1 (idx.x + sub.x - 1) size.x, wrap1 (idx.y + sub.y - 1) size.y⟩
      from rfl]
    rcases getQuadrant idx start <;> rcases getQuadrant _ start <;> rfl

/-- C79. `getSubmap` does not overflow, for the requests of C78. -/
theorem C79_getSubmap {rd : K → K} (hrd : DoublePrecision rd) {m : CostMap K} (h : m.GeoRd rd) (ht : m.Tame43) (hm : m.Small)
    {pos len : Vec K} (hr : RequestOkRd rd m pos len) (hp : CentreOkRd rd m pos len) (idx : Idx) :
    m.getSubmapI rd pos len idx = m.getSubmapRd rd pos len idx := by
  obtain ⟨sx, sy⟩ := subAxes hrd h ht hr hp
  have e1 := C79_submap hrd h ht hm hr hp
  obtain ⟨ri, e2⟩ := submapGeometryRd_eq hrd h ht hr hp
  unfold getSubmapI getSubmapRd
  rw [e1, e2]
  generalize cornerCellRd rd m (highRd rd pos len) = T at sx sy
  generalize cornerCellRd rd m (lowRd rd pos len) = B at sx sy
  have hT : T.In m.size := ⟨sx.t0, sx.tb.trans_lt sx.bn, sy.t0, sy.tb.trans_lt sy.bn⟩
  have x1 := sx.t0; have x2 := sx.tb; have x3 := sx.bn
  have y1 := sy.t0; have y2 := sy.tb; have y3 := sy.bn
  have hmx := hm.x; have hmy := hm.y
  have hlen : ∀ n : Int, 0 < n → n ≤ 2 ^ 29 → rd ((n : K) * m.resolution) ≤ 2 ^ 30 * m.resolution := by
    intro n h0 hn
    have hr := h.res_pos
    have n0 : (0 : K) < n := by exact_mod_cast h0
    have n1 : (n : K) * m.resolution ≤ 2 ^ 29 * m.resolution :=
      mul_le_mul_of_nonneg_right (by exact_mod_cast hn) hr.le
    have e := (abs_le.mp (hrd ((n : K) * m.resolution))).2
    rw [abs_of_pos (mul_pos n0 hr)] at e
    have : (n : K) * m.resolution / 2 ^ 53 ≤ n * m.resolution := div_le_self (mul_pos n0 hr).le (by norm_num)
    linarith
  simp only
  rw [C79_setGeometry hrd _ (hlen _ (by omega) (by omega)) (hlen _ (by omega) (by omega))]
  have hset : ∀ (P : Vec K) (s0 : CostMap K), ∃ s1, s1.size = B - T + Idx.ones ∧
      setGeometryRd rd ⟨rd (((B.x - T.x + 1 : Int) : K) * m.resolution), rd (((B.y - T.y + 1 : Int) : K) * m.resolution)⟩
        m.resolution P s0 = (.ok (), s1) := by
    intro P s0
    unfold setGeometryRd
    rw [if_neg (not_not.mpr sx.len_pos), if_neg (not_not.mpr sy.len_pos), if_neg (not_not.mpr h.res_pos)]
    simp only [sx.cells, sy.cells]
    exact ⟨_, rfl, rfl⟩
  obtain ⟨s1, z1, e3⟩ := hset ⟨Axis.subPosRd rd T.x (B.x - T.x + 1) m.length.x m.position.x m.resolution,
    Axis.subPosRd rd T.y (B.y - T.y + 1) m.length.y m.position.y m.resolution⟩
    ((((CostMap.new m.layers).setBasicLayers m.basicLayers).setTimestamp m.timestamp).setFrameId m.frameId)
  rw [e3]
  simp only
  rw [show (s1.setStartIndex 0).size = B - T + Idx.ones from z1,
    bufferRegionsI_eq h.start (bufferIdx_in hT h.start) hmx hmy
      (show 0 < B.x - T.x + 1 ∧ B.x - T.x + 1 ≤ 2 ^ 29 by omega) (show 0 < B.y - T.y + 1 ∧ B.y - T.y + 1 ≤ 2 ^ 29 by omega)]
  rcases bufferRegions (bufferIdx T m.size m.startIndex) (B - T + Idx.ones) m.size m.startIndex with - | regs <;> rfl

/-! ## Instances -/

namespace Demo
/-- The 7 x 7 map of C78 after a move: the seam of the buffer runs after the second row. -/
def dmoved : CostMap ℚ := (dr 7 7 0).setStartIndex ⟨5, 0⟩
theorem dmoved_geo : dmoved.GeoRd toDouble :=
  ⟨by decide +kernel, by decide +kernel, by decide +kernel, by decide +kernel, by decide +kernel, by decide +kernel⟩
theorem dmoved_tame : dmoved.Tame43 := ⟨by decide +kernel, by decide +kernel⟩
theorem dmoved_small : dmoved.Small := ⟨by decide +kernel, by decide +kernel⟩
end Demo

/-- A circle below the seam, with the machine's integers: it visits the cell of its centre. -/
example : ∃ it xs, circleIterI toDouble Demo.dmoved ⟨-12 / 100, 2 / 100⟩ (11 / 100) = .ok it ∧
    Visits (ShapeIter.opsI toDouble) it xs ∧ (⟨2, 3⟩ : Idx) ∈ xs := by
  have hb : BoxOkRd Demo.dmoved (circleLow toDouble ⟨-12 / 100, 2 / 100⟩ (11 / 100))
      (circleHigh toDouble ⟨-12 / 100, 2 / 100⟩ (11 / 100)) :=
    ⟨.inl (by decide +kernel), .inl (by decide +kernel), .inl (by decide +kernel), .inl (by decide +kernel)⟩
  obtain ⟨it, xs, h1, h2, -, -, h4⟩ := C80_circle_partial toDouble_precision Demo.dmoved_geo Demo.dmoved_tame
    (center := ⟨-12 / 100, 2 / 100⟩) (radius := 11 / 100) (by decide +kernel) (by decide +kernel) (by decide +kernel) hb
    ⟨by decide +kernel, by decide +kernel⟩
  obtain ⟨e, f⟩ := C79_circle toDouble_precision Demo.dmoved_geo Demo.dmoved_tame Demo.dmoved_small hb
  refine ⟨it, xs, e.trans h1, f it xs h1 h2, ?_⟩
  refine h4 _ ((Demo.dmoved.getPositionRd toDouble ⟨2, 3⟩).getD ⟨0, 0⟩) (by decide +kernel) ?_
  unfold dist2
  decide +kernel

/-- A circle through which the seam runs: no overflow here either, though the size of the box is negative (D6). -/
example : circleIterI toDouble Demo.dmoved ⟨14 / 100, 2 / 100⟩ (1 / 10) =
      circleIterRd toDouble Demo.dmoved ⟨14 / 100, 2 / 100⟩ (1 / 10) ∧
    (boxFromBufferIndicesRd toDouble Demo.dmoved (circleHigh toDouble ⟨14 / 100, 2 / 100⟩ (1 / 10))
      (circleLow toDouble ⟨14 / 100, 2 / 100⟩ (1 / 10))).2.x < 0 :=
  ⟨(C79_circle toDouble_precision Demo.dmoved_geo Demo.dmoved_tame Demo.dmoved_small
    ⟨.inl (by decide +kernel), .inl (by decide +kernel), .inl (by decide +kernel), .inl (by decide +kernel)⟩).1,
    by decide +kernel⟩

/-- A small ellipse below the seam. -/
example : ∃ it xs, ellipseIterI toDouble (fun _ => 9 / 100) Demo.dmoved ⟨-11 / 100, 1 / 100⟩ ⟨1 / 10, 1 / 20⟩ (4 / 5) (3 / 5) =
      .ok it ∧ Visits (ShapeIter.opsI toDouble) it xs ∧ (⟨2, 3⟩ : Idx) ∈ xs := by
  have hb : BoxOkRd Demo.dmoved (ellipseLow toDouble (fun _ => 9 / 100) ⟨-11 / 100, 1 / 100⟩ ⟨1 / 10, 1 / 20⟩ (4 / 5) (3 / 5))
      (ellipseHigh toDouble (fun _ => 9 / 100) ⟨-11 / 100, 1 / 100⟩ ⟨1 / 10, 1 / 20⟩ (4 / 5) (3 / 5)) :=
    ⟨.inl (by decide +kernel), .inl (by decide +kernel), .inl (by decide +kernel), .inl (by decide +kernel)⟩
  obtain ⟨it, xs, h1, h2, -, -, h4⟩ := C80_ellipse_partial toDouble_precision Demo.dmoved_geo Demo.dmoved_tame
    (sqrt := fun _ => 9 / 100)
    (center := ⟨-11 / 100, 1 / 100⟩) (len := ⟨1 / 10, 1 / 20⟩) (c := 4 / 5) (s := 3 / 5) (ρ := 2)
    (by norm_num [IsRotation]) (by norm_num) (by norm_num) (by norm_num) (by norm_num) (by norm_num)
    ⟨by decide +kernel, by decide +kernel⟩ ⟨by decide +kernel, by decide +kernel⟩ (by decide +kernel) (by decide +kernel)
    (by decide +kernel) (by decide +kernel) hb ⟨by decide +kernel, by decide +kernel⟩
  obtain ⟨e, f⟩ := C79_ellipse toDouble_precision Demo.dmoved_geo Demo.dmoved_tame Demo.dmoved_small hb
  refine ⟨it, xs, e.trans h1, f it xs h1 h2, ?_⟩
  refine h4 _ ((Demo.dmoved.getPositionRd toDouble ⟨2, 3⟩).getD ⟨0, 0⟩) (by decide +kernel) ?_
  unfold ellipseForm
  decide +kernel

/-- A triangle across the seam. -/
example : ∃ it xs, polygonIterI toDouble Demo.dmoved [⟨-23 / 100, -17 / 100⟩, ⟨24 / 100, -16 / 100⟩, ⟨1 / 100, 22 / 100⟩] = .ok it ∧
    Visits (ShapeIter.opsI toDouble) it xs ∧ xs.Nodup := by
  have hbox : IsBox [(⟨-23 / 100, -17 / 100⟩ : Vec ℚ), ⟨24 / 100, -16 / 100⟩, ⟨1 / 100, 22 / 100⟩]
      ⟨-23 / 100, -17 / 100⟩ ⟨24 / 100, 22 / 100⟩ :=
    ⟨by decide +kernel, by decide +kernel, by decide +kernel, by decide +kernel, by decide +kernel⟩
  have hb : BoxOkRd Demo.dmoved ⟨-23 / 100, -17 / 100⟩ ⟨24 / 100, 22 / 100⟩ :=
    ⟨.inl (by decide +kernel), .inl (by decide +kernel), .inl (by decide +kernel), .inl (by decide +kernel)⟩
  obtain ⟨it, xs, h1, h2, h3, -⟩ := C80_polygon_partial toDouble_precision Demo.dmoved_geo Demo.dmoved_tame hbox hb (W := 1)
    (by decide +kernel) (by decide +kernel)
  obtain ⟨e, f⟩ := C79_polygon toDouble_precision Demo.dmoved_geo Demo.dmoved_tame Demo.dmoved_small hbox hb
  exact ⟨it, xs, e.trans h1, f it xs h1 h2, h3⟩

/-- The submap of the example of C78. -/
example : ∃ s, (Demo.dr 7 7 0).getSubmapI toDouble ⟨21 / 100, 2 / 100⟩ ⟨1 / 2, 9 / 10⟩ 0 = .ok (s, 0, true) ∧
    s.layers = ["a"] := by
  have h : (Demo.dr 7 7 0).GeoRd toDouble :=
    ⟨by decide +kernel, by decide +kernel, by decide +kernel, by decide +kernel, by decide +kernel, by decide +kernel⟩
  have ht : (Demo.dr 7 7 0).Tame43 := ⟨by decide +kernel, by decide +kernel⟩
  have hr : RequestOkRd toDouble (Demo.dr 7 7 0) ⟨21 / 100, 2 / 100⟩ ⟨1 / 2, 9 / 10⟩ :=
    ⟨.inr (by decide +kernel), .inr (by decide +kernel), .inl (by decide +kernel), .inr (by decide +kernel)⟩
  have hp : CentreOkRd toDouble (Demo.dr 7 7 0) ⟨21 / 100, 2 / 100⟩ ⟨1 / 2, 9 / 10⟩ :=
    ⟨by decide +kernel, by decide +kernel, by decide +kernel, by decide +kernel, by decide +kernel, by decide +kernel⟩
  obtain ⟨s, k, e, -, t, -, l, -⟩ := C78_submap_partial toDouble_precision h (Demo.dr_coherent 7 7 0) ht hr hp 0
  exact ⟨s, (C79_getSubmap toDouble_precision h ht ⟨by decide +kernel, by decide +kernel⟩ hr hp 0).trans e,
    l.trans (by decide +kernel)⟩

end CostMapModel

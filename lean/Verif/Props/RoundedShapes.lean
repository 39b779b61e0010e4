import Verif.Lemmas.RoundedShapes
import Verif.Props.Iterators
import Verif.Props.RoundedSubmap

/-!
# Circle, ellipse and polygon iterators in floating point: C80
-/

set_option linter.unusedSectionVars false

namespace CostMapModel
open CostMap
variable {K : Type} [Field K] [LinearOrder K] [IsStrictOrderedRing K] [FloorRing K]

theorem boundPositionRd_id (p l c : Vec K) : boundPositionRd id p l c = boundPosition p l c := by
  have g : ∀ p : K, guardRd id p = 10 * dblEpsilon * (if 1 < |p| then |p| else 1) := by
    intro p; unfold guardRd; split <;> simp
  have e0 : ∀ p l c : K, boundPosition1Rd id p l c = boundPosition1 p l c := by
    intro p l c; unfold boundPosition1Rd boundPosition1; rw [g]; rfl
  unfold boundPositionRd boundPosition
  rw [e0, e0]

theorem opsRd_id : (ShapeIter.opsRd id : IterOps (ShapeIter K) Idx) = ShapeIter.ops ∧
    ∀ (m : CostMap K) shape s n, ShapeIter.newWithRd id m shape s n = ShapeIter.newWith m shape s n := by
  have e1 : ∀ (it : ShapeIter K) s, it.isInsideRd id s = it.isInside s := by
    intro it s
    unfold ShapeIter.isInsideRd ShapeIter.isInside
    rw [show positionFromIndexRd id s.index it.length it.position it.resolution it.size it.startIndex =
      positionFromIndex s.index it.length it.position it.resolution it.size it.startIndex from rfl]
    cases positionFromIndex s.index it.length it.position it.resolution it.size it.startIndex <;> rfl
  have e2 : ∀ (it : ShapeIter K) n s, it.skipRd id n s = it.skip n s := by
    intro it n
    induction n with
    | zero => intro s; rfl
    | succ n ih =>
      intro s
      unfold ShapeIter.skipRd ShapeIter.skip
      rw [e1]
      congr 2
      funext b
      rw [ih]
  have e3 : ∀ it : ShapeIter K, it.nextRd id = it.next := by
    intro it
    unfold ShapeIter.nextRd ShapeIter.next
    simp only [e2]
  refine ⟨?_, ?_⟩
  · unfold ShapeIter.opsRd ShapeIter.ops
    congr 1
    funext it
    exact e3 it
  · intro m shape s n
    unfold ShapeIter.newWithRd ShapeIter.newWith
    simp only [e1, e3]

/-- C80. Without rounding the iterators are those of the exact model. -/
theorem C80_exact_arithmetic (sqrt : K → K) (m : CostMap K) (center len : Vec K) (radius c s : K) (vs : List (Vec K)) :
    circleIterRd id m center radius = circleIter m center radius ∧
    ellipseIterRd id sqrt m center len c s = ellipseIter sqrt m center len c s ∧
    polygonIterRd id m vs = polygonIter m vs ∧
    (ShapeIter.opsRd id : IterOps (ShapeIter K) Idx) = ShapeIter.ops := by
  obtain ⟨h1, h2⟩ := opsRd_id (K := K)
  have hb : ∀ a b, boxFromBufferIndicesRd id m a b = boxFromBufferIndices m a b := by
    intro a b
    unfold boxFromBufferIndicesRd boxFromBufferIndices
    rw [boundPositionRd_id, boundPositionRd_id]
    rfl
  refine ⟨?_, ?_, ?_, h1⟩
  · unfold circleIterRd circleIter
    simp only [h2, hb]
    rfl
  · unfold ellipseIterRd ellipseIter
    simp only [h2, hb]
    rfl
  · cases vs with
    | nil => rfl
    | cons v t =>
      unfold polygonIterRd polygonIter
      simp only [h2, boundPositionRd_id]
      rfl

/-! ## Corners -/

theorem cornerRd_index {rd : K → K} {m : CostMap K} (p : Vec K) :
    (m.getIndexRd rd (boundPositionRd rd p m.length m.position)).1 =
      bufferIdx (cornerCellRd rd m p) m.size m.startIndex := rfl

theorem cornerRd_in {rd : K → K} (hrd : DoublePrecision rd) {m : CostMap K} (h : m.GeoRd rd) (ht : m.Tame43) {p : Vec K}
    (hx : CornerOk m.size.x m.resolution m.position.x p.x) (hy : CornerOk m.size.y m.resolution m.position.y p.y) :
    (cornerCellRd rd m p).In m.size := by
  obtain ⟨a, b⟩ := (axis43_x h ht).cut_range hrd hx
  obtain ⟨c, d⟩ := (axis43_y h ht).cut_range hrd hy
  exact ⟨a, b, c, d⟩

/-- A cell whose computed centre is in the box, up to a small part of a cell, lies between the corners. -/
theorem betweenRd {rd : K → K} (hrd : DoublePrecision rd) {m : CostMap K} (h : m.GeoRd rd) (ht : m.Tame43) {lo hi : Vec K}
    (hb : BoxOkRd m lo hi) {i : Idx} {p : Vec K} (hp : m.getPositionRd rd i = some p)
    (hx : lo.x - m.resolution / 16 ≤ p.x ∧ p.x ≤ hi.x + m.resolution / 16)
    (hy : lo.y - m.resolution / 16 ≤ p.y ∧ p.y ≤ hi.y + m.resolution / 16) :
    ((cornerCellRd rd m hi).x ≤ (unwrapIdx i m.size m.startIndex).x ∧
      (unwrapIdx i m.size m.startIndex).x ≤ (cornerCellRd rd m lo).x) ∧
    ((cornerCellRd rd m hi).y ≤ (unwrapIdx i m.size m.startIndex).y ∧
      (unwrapIdx i m.size m.startIndex).y ≤ (cornerCellRd rd m lo).y) := by
  have hi' := getPositionRd_in hp
  rw [getPositionRd_eq hi'] at hp
  cases hp
  obtain ⟨u1, u2, u3, u4⟩ := unwrapIdx_in hi' h.start
  exact ⟨⟨(axis43_x h ht).cut_le hrd ht.x hb.high_x u1 u2 hx.2, (axis43_x h ht).le_cut hrd ht.x hb.low_x u1 u2 hx.1⟩,
    (axis43_y h ht).cut_le hrd ht.y hb.high_y u3 u4 hy.2, (axis43_y h ht).le_cut hrd ht.y hb.low_y u3 u4 hy.1⟩

/-- In floating point: the corners of the box that circle and ellipse iterators walk are in order in the buffer, i.e. the
seam of the circular buffer does not run through the box. -/
def SeamFreeRd (rd : K → K) (m : CostMap K) (lo hi : Vec K) : Prop :=
  (m.getIndexRd rd (boundPositionRd rd hi m.length m.position)).1.x ≤
    (m.getIndexRd rd (boundPositionRd rd lo m.length m.position)).1.x ∧
  (m.getIndexRd rd (boundPositionRd rd hi m.length m.position)).1.y ≤
    (m.getIndexRd rd (boundPositionRd rd lo m.length m.position)).1.y

theorem boxRd_of_seamFree {rd : K → K} (hrd : DoublePrecision rd) {m : CostMap K} (h : m.GeoRd rd) (ht : m.Tame43)
    {lo hi : Vec K} (hb : BoxOkRd m lo hi) (hx : m.resolution / 8 ≤ hi.x - lo.x)
    (hy : m.resolution / 8 ≤ hi.y - lo.y) (hf : SeamFreeRd rd m lo hi) :
    boxFromBufferIndicesRd rd m hi lo = (bufferIdx (cornerCellRd rd m hi) m.size m.startIndex,
      cornerCellRd rd m lo - cornerCellRd rd m hi + Idx.ones) := by
  have hT := cornerRd_in hrd h ht hb.high_x hb.high_y
  have hB := cornerRd_in hrd h ht hb.low_x hb.low_y
  have ux := tame_unit (axis43_x h ht) ht.x
  have uy := tame_unit (axis43_y h ht) ht.y
  have nx := (axis43_x h ht).unit_nonneg
  have ny := (axis43_y h ht).unit_nonneg
  have l1 : (cornerCellRd rd m hi).x ≤ (cornerCellRd rd m lo).x :=
    (axis43_x h ht).cut_mono hrd hb.high_x hb.low_x (by linarith)
  have l2 : (cornerCellRd rd m hi).y ≤ (cornerCellRd rd m lo).y :=
    (axis43_y h ht).cut_mono hrd hb.high_y hb.low_y (by linarith)
  unfold SeamFreeRd at hf
  unfold boxFromBufferIndicesRd
  simp only [cornerRd_index] at hf ⊢
  rw [bufferIdx_eq hT h.start, bufferIdx_eq hB h.start] at *
  obtain ⟨s1, s2, s3, s4⟩ := h.start
  obtain ⟨t1, t2, t3, t4⟩ := hT
  obtain ⟨b1, b2, b3, b4⟩ := hB
  have e1 := (buf_sub (n := m.size.x) t1 b2 l1).1 hf.1
  have e2 := (buf_sub (n := m.size.y) t3 b4 l2).1 hf.2
  congr 1
  ext
  · simp only [Idx.add_x, Idx.sub_x]; rw [e1]
  · simp only [Idx.add_y, Idx.sub_y]; rw [e2]

theorem boxRd_of_unmoved {rd : K → K} {m : CostMap K} (h0 : m.startIndex = 0) (lo hi : Vec K) :
    boxFromBufferIndicesRd rd m hi lo = (bufferIdx (cornerCellRd rd m hi) m.size m.startIndex,
      cornerCellRd rd m lo - cornerCellRd rd m hi + Idx.ones) := by
  unfold boxFromBufferIndicesRd
  simp only [cornerRd_index, h0]
  simp [bufferIdx]

/-! ## Circle -/

/-- The upper corner of the circle's box, as computed. -/
def circleHigh (rd : K → K) (center : Vec K) (radius : K) : Vec K := ⟨rd (center.x + radius), rd (center.y + radius)⟩
/-- The lower corner of the circle's box, as computed. -/
def circleLow (rd : K → K) (center : Vec K) (radius : K) : Vec K := ⟨rd (center.x - radius), rd (center.y - radius)⟩

/-- The computed corners are apart. -/
theorem apartRd {rd : K → K} (hrd : DoublePrecision rd) {c r R : K} (hp : 0 < r) (hr : r / 8 ≤ R)
    (hc : |c| + R ≤ 2 ^ 43 * r) : r / 8 ≤ rd (c + R) - rd (c - R) := by
  have a := abs_le.mp (hrd (c + R))
  have b := abs_le.mp (hrd (c - R))
  have e1 : |c + R| / 2 ^ 53 ≤ r / 1024 := by
    have := abs_add_le c R
    rw [abs_of_nonneg (show 0 ≤ R by linarith)] at this
    rw [div_le_iff₀ (by positivity)]
    linarith
  have e2 : |c - R| / 2 ^ 53 ≤ r / 1024 := by
    have := abs_sub c R
    rw [abs_of_nonneg (show 0 ≤ R by linarith)] at this
    rw [div_le_iff₀ (by positivity)]
    linarith
  linarith [a.1, b.2]

theorem circleRd_aux {rd : K → K} (hrd : DoublePrecision rd) {m : CostMap K} (h : m.GeoRd rd) (ht : m.Tame43)
    {center : Vec K} {radius : K} (hr : 0 ≤ radius)
    (sx : |center.x| + radius ≤ 2 ^ 43 * m.resolution) (sy : |center.y| + radius ≤ 2 ^ 43 * m.resolution)
    (hb : BoxOkRd m (circleLow rd center radius) (circleHigh rd center radius))
    (hbox : boxFromBufferIndicesRd rd m (circleHigh rd center radius) (circleLow rd center radius) =
      (bufferIdx (cornerCellRd rd m (circleHigh rd center radius)) m.size m.startIndex,
        cornerCellRd rd m (circleLow rd center radius) - cornerCellRd rd m (circleHigh rd center radius) + Idx.ones)) :
    ∃ it xs, circleIterRd rd m center radius = .ok it ∧ Visits (ShapeIter.opsRd rd) it xs ∧ xs.Nodup ∧
      (∀ i ∈ xs, ∃ p, m.getPositionRd rd i = some p ∧ dist2 p center ≤ (1 + 1 / 2 ^ 50) * radius ^ 2) ∧
      (∀ i p, m.getPositionRd rd i = some p → dist2 p center ≤ (1 - 1 / 2 ^ 50) * radius ^ 2 → i ∈ xs) := by
  obtain ⟨it, xs, h1, h2, h3, h4⟩ := block_enumeratesRd (rd := rd) h.start (circleShapeRd rd center radius)
    (cornerRd_in hrd h ht hb.high_x hb.high_y) (cornerRd_in hrd h ht hb.low_x hb.low_y) (by
      intro i p hp hs
      have hd := (circleShapeRd_spec hrd center radius p).1 hs
      unfold dist2 at hd
      obtain ⟨x1, x2⟩ := circle_axis hrd hr h.res_pos sx (d := p.x) (by linarith [sq_nonneg (p.y - center.y)])
      obtain ⟨y1, y2⟩ := circle_axis hrd hr h.res_pos sy (d := p.y) (by linarith [sq_nonneg (p.x - center.x)])
      exact betweenRd hrd h ht hb hp ⟨x2, x1⟩ ⟨y2, y1⟩)
  refine ⟨it, xs, ?_, h2, h3, ?_, ?_⟩
  · unfold circleIterRd
    have : boxFromBufferIndicesRd rd m ⟨rd (center.x + radius), rd (center.y + radius)⟩
      ⟨rd (center.x - radius), rd (center.y - radius)⟩ = _ := hbox
    rw [this]
    exact h1
  · intro i hi
    obtain ⟨p, hp, hs⟩ := (h4 i).mp hi
    exact ⟨p, hp, (circleShapeRd_spec hrd center radius p).1 hs⟩
  · intro i p hp hd
    exact (h4 i).mpr ⟨p, hp, (circleShapeRd_spec hrd center radius p).2 hd⟩

/-- C80 (partial: the corners of the circle's box must be well inside or well outside of the map, as for `getSubmap` in
C78; missing: circles that touch the border of the map or stick out of it near the origin of the frame, where
`C80_false_at_the_border` gives a counterexample). On a map whose buffer was never rotated, the circle iterator ends, visits
no cell twice, and visits exactly the cells whose computed centre is within the radius, up to `2^-50` of the squared
radius. -/
theorem C80_circle_unmoved_partial {rd : K → K} (hrd : DoublePrecision rd) {m : CostMap K} (h : m.GeoRd rd) (ht : m.Tame43)
    (h0 : m.startIndex = 0) {center : Vec K} {radius : K} (hr : 0 ≤ radius)
    (sx : |center.x| + radius ≤ 2 ^ 43 * m.resolution) (sy : |center.y| + radius ≤ 2 ^ 43 * m.resolution)
    (hb : BoxOkRd m (circleLow rd center radius) (circleHigh rd center radius)) :
    ∃ it xs, circleIterRd rd m center radius = .ok it ∧ Visits (ShapeIter.opsRd rd) it xs ∧ xs.Nodup ∧
      (∀ i ∈ xs, ∃ p, m.getPositionRd rd i = some p ∧ dist2 p center ≤ (1 + 1 / 2 ^ 50) * radius ^ 2) ∧
      (∀ i p, m.getPositionRd rd i = some p → dist2 p center ≤ (1 - 1 / 2 ^ 50) * radius ^ 2 → i ∈ xs) :=
  circleRd_aux hrd h ht hr sx sy hb (boxRd_of_unmoved h0 _ _)

/-- C80 for a circle on a moved map (partial: as above, and the seam of the buffer must not run through the circle's box). -/
theorem C80_circle_partial {rd : K → K} (hrd : DoublePrecision rd) {m : CostMap K} (h : m.GeoRd rd) (ht : m.Tame43)
    {center : Vec K} {radius : K} (hr : m.resolution / 8 ≤ radius)
    (sx : |center.x| + radius ≤ 2 ^ 43 * m.resolution) (sy : |center.y| + radius ≤ 2 ^ 43 * m.resolution)
    (hb : BoxOkRd m (circleLow rd center radius) (circleHigh rd center radius))
    (hf : SeamFreeRd rd m (circleLow rd center radius) (circleHigh rd center radius)) :
    ∃ it xs, circleIterRd rd m center radius = .ok it ∧ Visits (ShapeIter.opsRd rd) it xs ∧ xs.Nodup ∧
      (∀ i ∈ xs, ∃ p, m.getPositionRd rd i = some p ∧ dist2 p center ≤ (1 + 1 / 2 ^ 50) * radius ^ 2) ∧
      (∀ i p, m.getPositionRd rd i = some p → dist2 p center ≤ (1 - 1 / 2 ^ 50) * radius ^ 2 → i ∈ xs) := by
  exact circleRd_aux hrd h ht (le_trans (by have := h.res_pos; linarith) hr) sx sy hb
    (boxRd_of_seamFree hrd h ht hb (apartRd hrd h.res_pos hr sx) (apartRd hrd h.res_pos hr sy) hf)

/-! ## Ellipse -/

/-- The half side lengths of the ellipse iterator's bounding box, as computed. -/
def ellipseHalfRd (rd sqrt : K → K) (len : Vec K) (c s : K) : Vec K :=
  ⟨sqrt (rd (rd (rd (c * len.x) ^ 2) + rd (rd (-s * len.y) ^ 2))),
    sqrt (rd (rd (rd (s * len.x) ^ 2) + rd (rd (c * len.y) ^ 2)))⟩

/-- The upper corner of the ellipse's box, as computed. -/
def ellipseHigh (rd sqrt : K → K) (center len : Vec K) (c s : K) : Vec K :=
  ⟨rd (center.x + (ellipseHalfRd rd sqrt len c s).x), rd (center.y + (ellipseHalfRd rd sqrt len c s).y)⟩
/-- The lower corner of the ellipse's box, as computed. -/
def ellipseLow (rd sqrt : K → K) (center len : Vec K) (c s : K) : Vec K :=
  ⟨rd (center.x - (ellipseHalfRd rd sqrt len c s).x), rd (center.y - (ellipseHalfRd rd sqrt len c s).y)⟩

theorem IsRotation.neg {c s : K} (h : IsRotation c s) : IsRotation c (-s) := by
  unfold IsRotation at *; rw [neg_sq]; exact h

theorem IsRotation.swap {c s : K} (h : IsRotation c s) : IsRotation s c := by
  unfold IsRotation at *; rw [add_comm (s ^ 2)]; exact h

theorem ellipseRd_aux {rd : K → K} (hrd : DoublePrecision rd) {m : CostMap K} (h : m.GeoRd rd) (ht : m.Tame43)
    {sqrt : K → K} {center len : Vec K} {c s ρ : K} (hcs : IsRotation c s)
    (hx : 0 < len.x) (hy : 0 < len.y) (hxy : len.x ≤ ρ * len.y) (hyx : len.y ≤ ρ * len.x) (hρ : ρ ≤ 2 ^ 36)
    (qx : SqrtNear sqrt (rd (rd (rd (c * len.x) ^ 2) + rd (rd (-s * len.y) ^ 2))))
    (qy : SqrtNear sqrt (rd (rd (rd (s * len.x) ^ 2) + rd (rd (c * len.y) ^ 2))))
    (sx : |center.x| + (ellipseHalfRd rd sqrt len c s).x ≤ 2 ^ 43 * m.resolution)
    (sy : |center.y| + (ellipseHalfRd rd sqrt len c s).y ≤ 2 ^ 43 * m.resolution)
    (hb : BoxOkRd m (ellipseLow rd sqrt center len c s) (ellipseHigh rd sqrt center len c s))
    (hbox : boxFromBufferIndicesRd rd m (ellipseHigh rd sqrt center len c s) (ellipseLow rd sqrt center len c s) =
      (bufferIdx (cornerCellRd rd m (ellipseHigh rd sqrt center len c s)) m.size m.startIndex,
        cornerCellRd rd m (ellipseLow rd sqrt center len c s) - cornerCellRd rd m (ellipseHigh rd sqrt center len c s) +
          Idx.ones)) :
    ∃ it xs, ellipseIterRd rd sqrt m center len c s = .ok it ∧ Visits (ShapeIter.opsRd rd) it xs ∧ xs.Nodup ∧
      (∀ i ∈ xs, ∃ p, m.getPositionRd rd i = some p ∧ ellipseForm center len c s p ≤ 1 + ρ / 2 ^ 46) ∧
      (∀ i p, m.getPositionRd rd i = some p → ellipseForm center len c s p ≤ 1 - ρ / 2 ^ 46 → i ∈ xs) := by
  obtain ⟨it, xs, h1, h2, h3, h4⟩ := block_enumeratesRd (rd := rd) h.start (ellipseShapeRd rd center len c s)
    (cornerRd_in hrd h ht hb.high_x hb.high_y) (cornerRd_in hrd h ht hb.low_x hb.low_y) (by
      intro i p hp hs
      have hF := (ellipseShapeRd_spec hrd hcs hx hy hxy hyx hρ p).1 hs
      have hF2 : ellipseForm center len c s p ≤ 2 := by
        have : ρ / 2 ^ 46 ≤ 1 := by
          rw [div_le_one (by positivity)]
          exact hρ.trans (by norm_num)
        linarith
      have bx : |p.x - center.x| ≤ (ellipseHalfRd rd sqrt len c s).x :=
        ellipse_half hrd (c := c) (s := -s) (u := c * (p.x - center.x) + s * (p.y - center.y))
          (v := -(s * (p.x - center.x) - c * (p.y - center.y))) hcs.neg hx hy (by ring)
          (by rw [neg_div, neg_sq]; exact hF2) rfl qx
      have bY : |p.y - center.y| ≤ (ellipseHalfRd rd sqrt len c s).y :=
        ellipse_half hrd (c := s) (s := c) (u := c * (p.x - center.x) + s * (p.y - center.y))
          (v := -(s * (p.x - center.x) - c * (p.y - center.y))) hcs.swap hx hy (by ring)
          (by rw [neg_div, neg_sq]; exact hF2) rfl qy
      have sqb : ∀ d H : K, 0 ≤ H → |d| ≤ H → d ^ 2 ≤ (1 + 1 / 2 ^ 50) * H ^ 2 := by
        intro d H hH hd
        have := pow_le_pow_left₀ (abs_nonneg d) hd 2
        rw [sq_abs] at this
        have := mul_le_mul_of_nonneg_right (show (1 : K) ≤ 1 + 1 / 2 ^ 50 by norm_num) (sq_nonneg H)
        linarith
      obtain ⟨x1, x2⟩ := circle_axis hrd qx.1 h.res_pos sx (sqb _ _ qx.1 bx)
      obtain ⟨y1, y2⟩ := circle_axis hrd qy.1 h.res_pos sy (sqb _ _ qy.1 bY)
      exact betweenRd hrd h ht hb hp ⟨x2, x1⟩ ⟨y2, y1⟩)
  refine ⟨it, xs, ?_, h2, h3, ?_, ?_⟩
  · unfold ellipseIterRd
    simp only [ellipseHigh, ellipseLow, ellipseHalfRd] at hbox h1 ⊢
    rw [hbox]
    exact h1
  · intro i hi
    obtain ⟨p, hp, hs⟩ := (h4 i).mp hi
    exact ⟨p, hp, (ellipseShapeRd_spec hrd hcs hx hy hxy hyx hρ p).1 hs⟩
  · intro i p hp hd
    exact (h4 i).mpr ⟨p, hp, (ellipseShapeRd_spec hrd hcs hx hy hxy hyx hρ p).2 hd⟩

/-- C80 for the ellipse (partial: as for the circle, and the buffer must not be rotated). `c` and `s` are cosine and sine of
the rotation as computed, `sqrt` is the square root as computed, and `ρ` is the ratio of the axes. The iteration ends, visits no
cell twice, and visits exactly the cells whose computed centre is in the ellipse, up to `ρ * 2^-46`. -/
theorem C80_ellipse_unmoved_partial {rd : K → K} (hrd : DoublePrecision rd) {m : CostMap K} (h : m.GeoRd rd) (ht : m.Tame43)
    (h0 : m.startIndex = 0) {sqrt : K → K} {center len : Vec K} {c s ρ : K} (hcs : IsRotation c s)
    (hx : 0 < len.x) (hy : 0 < len.y) (hxy : len.x ≤ ρ * len.y) (hyx : len.y ≤ ρ * len.x) (hρ : ρ ≤ 2 ^ 36)
    (qx : SqrtNear sqrt (rd (rd (rd (c * len.x) ^ 2) + rd (rd (-s * len.y) ^ 2))))
    (qy : SqrtNear sqrt (rd (rd (rd (s * len.x) ^ 2) + rd (rd (c * len.y) ^ 2))))
    (sx : |center.x| + (ellipseHalfRd rd sqrt len c s).x ≤ 2 ^ 43 * m.resolution)
    (sy : |center.y| + (ellipseHalfRd rd sqrt len c s).y ≤ 2 ^ 43 * m.resolution)
    (hb : BoxOkRd m (ellipseLow rd sqrt center len c s) (ellipseHigh rd sqrt center len c s)) :
    ∃ it xs, ellipseIterRd rd sqrt m center len c s = .ok it ∧ Visits (ShapeIter.opsRd rd) it xs ∧ xs.Nodup ∧
      (∀ i ∈ xs, ∃ p, m.getPositionRd rd i = some p ∧ ellipseForm center len c s p ≤ 1 + ρ / 2 ^ 46) ∧
      (∀ i p, m.getPositionRd rd i = some p → ellipseForm center len c s p ≤ 1 - ρ / 2 ^ 46 → i ∈ xs) :=
  ellipseRd_aux hrd h ht hcs hx hy hxy hyx hρ qx qy sx sy hb (boxRd_of_unmoved h0 _ _)

/-- C80 for an ellipse on a moved map (partial: as above; the seam of the buffer must not run through the ellipse's box). -/
theorem C80_ellipse_partial {rd : K → K} (hrd : DoublePrecision rd) {m : CostMap K} (h : m.GeoRd rd) (ht : m.Tame43)
    {sqrt : K → K} {center len : Vec K} {c s ρ : K} (hcs : IsRotation c s)
    (hx : 0 < len.x) (hy : 0 < len.y) (hxy : len.x ≤ ρ * len.y) (hyx : len.y ≤ ρ * len.x) (hρ : ρ ≤ 2 ^ 36)
    (qx : SqrtNear sqrt (rd (rd (rd (c * len.x) ^ 2) + rd (rd (-s * len.y) ^ 2))))
    (qy : SqrtNear sqrt (rd (rd (rd (s * len.x) ^ 2) + rd (rd (c * len.y) ^ 2))))
    (sx : |center.x| + (ellipseHalfRd rd sqrt len c s).x ≤ 2 ^ 43 * m.resolution)
    (sy : |center.y| + (ellipseHalfRd rd sqrt len c s).y ≤ 2 ^ 43 * m.resolution)
    (gx : m.resolution / 8 ≤ (ellipseHalfRd rd sqrt len c s).x) (gy : m.resolution / 8 ≤ (ellipseHalfRd rd sqrt len c s).y)
    (hb : BoxOkRd m (ellipseLow rd sqrt center len c s) (ellipseHigh rd sqrt center len c s))
    (hf : SeamFreeRd rd m (ellipseLow rd sqrt center len c s) (ellipseHigh rd sqrt center len c s)) :
    ∃ it xs, ellipseIterRd rd sqrt m center len c s = .ok it ∧ Visits (ShapeIter.opsRd rd) it xs ∧ xs.Nodup ∧
      (∀ i ∈ xs, ∃ p, m.getPositionRd rd i = some p ∧ ellipseForm center len c s p ≤ 1 + ρ / 2 ^ 46) ∧
      (∀ i p, m.getPositionRd rd i = some p → ellipseForm center len c s p ≤ 1 - ρ / 2 ^ 46 → i ∈ xs) :=
  ellipseRd_aux hrd h ht hcs hx hy hxy hyx hρ qx qy sx sy hb
    (boxRd_of_seamFree hrd h ht hb (apartRd hrd h.res_pos gx sx) (apartRd hrd h.res_pos gy sy) hf)

/-! ## Polygon -/

/-- Away from the edges the computed crossing test is the exact one. -/
theorem polygonInsideRd_clear {rd : K → K} (hrd : DoublePrecision rd) {vs : List (Vec K)} {W : K}
    (hW : ∀ v ∈ vs, |v.x| ≤ W) {p : Vec K} (hc : ClearOf (W / 2 ^ 49) vs p) :
    polygonInsideRd rd vs p = true ↔ EvenOdd vs p := by
  rw [← polygonInside_iff]
  have : polygonInsideRd rd vs p = polygonInside vs p := by
    unfold polygonInsideRd polygonInside
    cases hl : vs.getLast? with
    | none => rfl
    | some l =>
      simp only
      rw [List.filter_congr]
      intro e he
      have hlm : l ∈ vs := List.mem_of_getLast? hl
      obtain ⟨m1, m2⟩ := mem_of_mem_zip_cons hlm he
      rw [crossesRd_eq]
      unfold crosses
      by_cases hs : (decide (p.y < e.2.y) != decide (p.y < e.1.y)) = true
      · rw [hs]
        simp only [Bool.true_and]
        have herr := edgeRd_err hrd (p := p) (hW _ m2) (hW _ m1) hs
        have hmem : e ∈ polygonEdges vs := (edges_perm vs l hl).mem_iff.mp he
        have hne : e.1.y - e.2.y ≠ 0 := by
          intro h0
          have : e.1.y = e.2.y := by linarith
          rw [this] at hs
          simp at hs
        have hq : 0 ≤ (p.y - e.2.y) / (e.1.y - e.2.y) ∧ (p.y - e.2.y) / (e.1.y - e.2.y) ≤ 1 := by
          rcases lt_or_ge p.y e.2.y with h1 | h1 <;> rcases lt_or_ge p.y e.1.y with h2 | h2
          · simp [h1, h2] at hs
          · exact ⟨div_nonneg_of_nonpos (by linarith) (by linarith), by rw [div_le_one_of_neg (by linarith)]; linarith⟩
          · exact ⟨div_nonneg (by linarith) (by linarith), by rw [div_le_one (by linarith)]; linarith⟩
          · simp [not_lt.mpr h1, not_lt.mpr h2] at hs
        have hfar := hc e hmem (1 - (p.y - e.2.y) / (e.1.y - e.2.y)) (by linarith [hq.2]) (by linarith [hq.1]) (by
          have := div_mul_cancel₀ (p.y - e.2.y) hne
          linear_combination -this)
        have ex : e.1.x + (1 - (p.y - e.2.y) / (e.1.y - e.2.y)) * (e.2.x - e.1.x) =
            (e.1.x - e.2.x) * (p.y - e.2.y) / (e.1.y - e.2.y) + e.2.x := by ring
        rw [ex] at hfar
        generalize (e.1.x - e.2.x) * (p.y - e.2.y) / (e.1.y - e.2.y) + e.2.x = X at *
        generalize edgeRd rd p e.2 e.1 = Y at *
        rw [decide_eq_decide]
        rw [abs_le] at herr
        rcases lt_abs.mp hfar with g | g
        · constructor <;> intro <;> linarith
        · constructor <;> intro <;> linarith
      · have hs' : (decide (p.y < e.2.y) != decide (p.y < e.1.y)) = false := by simpa using hs
        rw [hs']; rfl
  rw [this]

/-- The corners of the polygon iterator's box. -/
theorem foldl_box {v : Vec K} {t : List (Vec K)} {lo hi : Vec K} (hbox : IsBox (v :: t) lo hi) :
    (v :: t).foldl (fun a b => (⟨max a.x b.x, max a.y b.y⟩ : Vec K)) v = hi ∧
    (v :: t).foldl (fun a b => (⟨min a.x b.x, min a.y b.y⟩ : Vec K)) v = lo := by
  have a1 := foldl_max_attained (v :: t) v
  have a2 := foldl_min_attained (v :: t) v
  have g1 := foldl_max_ge (v :: t) v
  have g2 := foldl_min_le (v :: t) v
  simp only at a1 a2 g1 g2
  have hmem : ∀ w, w ∈ v :: v :: t → w ∈ v :: t := by
    intro w hw
    rcases List.mem_cons.mp hw with rfl | hw
    · simp
    · exact hw
  have ehi : (v :: t).foldl (fun a b => (⟨max a.x b.x, max a.y b.y⟩ : Vec K)) v = hi := by
    obtain ⟨⟨w, hw, e1⟩, ⟨u, hu, e2⟩⟩ := a1
    obtain ⟨w', hw', f1⟩ := hbox.hi_x
    obtain ⟨u', hu', f2⟩ := hbox.hi_y
    ext
    · exact le_antisymm (by rw [e1]; exact (hbox.above w (hmem w hw)).2.1) (by rw [← f1]; exact (g1.2 w' hw').1)
    · exact le_antisymm (by rw [e2]; exact (hbox.above u (hmem u hu)).2.2.2) (by rw [← f2]; exact (g1.2 u' hu').2)
  have elo : (v :: t).foldl (fun a b => (⟨min a.x b.x, min a.y b.y⟩ : Vec K)) v = lo := by
    obtain ⟨⟨w, hw, e1⟩, ⟨u, hu, e2⟩⟩ := a2
    obtain ⟨w', hw', f1⟩ := hbox.lo_x
    obtain ⟨u', hu', f2⟩ := hbox.lo_y
    ext
    · exact le_antisymm (by rw [← f1]; exact (g2.2 w' hw').1) (by rw [e1]; exact (hbox.above w (hmem w hw)).1)
    · exact le_antisymm (by rw [← f2]; exact (g2.2 u' hu').2) (by rw [e2]; exact (hbox.above u (hmem u hu)).2.2.1)
  exact ⟨ehi, elo⟩

/-- C80 (partial: the corners of the polygon's bounding box must be well inside or well outside of the map; the counterexample
`C80_false_at_the_border` applies to polygons as well). For every start index the polygon iterator ends and visits no cell
twice; of the cells whose computed centre is not within `W * 2^-49` of an edge it visits exactly those whose centre is inside
the polygon; and it visits no cell outside the bounding box by more than that. -/
theorem C80_polygon_partial {rd : K → K} (hrd : DoublePrecision rd) {m : CostMap K} (h : m.GeoRd rd) (ht : m.Tame43)
    {vs : List (Vec K)} {lo hi : Vec K} (hbox : IsBox vs lo hi) (hb : BoxOkRd m lo hi) {W : K} (hW : ∀ v ∈ vs, |v.x| ≤ W)
    (hs : W ≤ 2 ^ 43 * m.resolution) :
    ∃ it xs, polygonIterRd rd m vs = .ok it ∧ Visits (ShapeIter.opsRd rd) it xs ∧ xs.Nodup ∧
      (∀ i ∈ xs, ∃ p, m.getPositionRd rd i = some p ∧ lo.x - W / 2 ^ 49 ≤ p.x ∧ p.x ≤ hi.x + W / 2 ^ 49 ∧
        lo.y ≤ p.y ∧ p.y ≤ hi.y) ∧
      ∀ i p, m.getPositionRd rd i = some p → ClearOf (W / 2 ^ 49) vs p → (i ∈ xs ↔ EvenOdd vs p) := by
  cases vs with
  | nil => obtain ⟨v, hv, -⟩ := hbox.hi_x; cases hv
  | cons v t =>
    obtain ⟨ehi, elo⟩ := foldl_box hbox
    have hin : ∀ p, polygonInsideRd rd (v :: t) p = true →
        (lo.x - W / 2 ^ 49 ≤ p.x ∧ p.x ≤ hi.x + W / 2 ^ 49) ∧ (lo.y ≤ p.y ∧ p.y ≤ hi.y) := fun p hp =>
      polygonInsideRd_in_box hrd (fun w hw => by
        obtain ⟨a, b, c, d⟩ := hbox.above w hw
        exact ⟨⟨a, b⟩, c, d⟩) hW hp
    have htol : W / 2 ^ 49 ≤ m.resolution / 16 := by
      rw [div_le_iff₀ (by positivity)]
      have := h.res_pos
      linarith
    have hT := cornerRd_in hrd h ht hb.high_x hb.high_y
    have hB := cornerRd_in hrd h ht hb.low_x hb.low_y
    obtain ⟨it, xs, h1, h2, h3, h4⟩ := block_enumeratesRd (rd := rd) h.start (polygonInsideRd rd (v :: t)) hT hB (by
        intro i p hp hsp
        obtain ⟨⟨x1, x2⟩, y1, y2⟩ := hin p hsp
        have := h.res_pos
        exact betweenRd hrd h ht hb hp ⟨by linarith, by linarith⟩ ⟨by linarith, by linarith⟩)
    refine ⟨it, xs, ?_, h2, h3, ?_, ?_⟩
    · unfold polygonIterRd
      simp only [submapSizeFromCorners, cornerRd_index, ehi, elo]
      rw [unwrap_buffer hT h.start, unwrap_buffer hB h.start]
      exact h1
    · intro i hi'
      obtain ⟨p, hp, hsp⟩ := (h4 i).mp hi'
      obtain ⟨⟨x1, x2⟩, y1, y2⟩ := hin p hsp
      exact ⟨p, hp, x1, x2, y1, y2⟩
    · intro i p hp hc
      rw [h4, ← polygonInsideRd_clear hrd hW hc]
      constructor
      · rintro ⟨q, hq, hsq⟩
        rw [hp] at hq
        cases hq
        exact hsq
      · intro hsp
        exact ⟨p, hp, hsp⟩

/-! ## Instances and counterexample -/

/-- A circle of radius 0.25 around (0.21, 0.02) on a map of 7 x 7 cells of 0.1 around the origin; it sticks out of the map at
the top of the rows. The cell of its centre is visited, a cell at the other end is not. -/
example : ∃ it xs, circleIterRd toDouble (Demo.dr 7 7 0) ⟨21 / 100, 2 / 100⟩ (1 / 4) = .ok it ∧
    Visits (ShapeIter.opsRd toDouble) it xs ∧ (⟨1, 3⟩ : Idx) ∈ xs ∧ (⟨5, 3⟩ : Idx) ∉ xs := by
  have h : (Demo.dr 7 7 0).GeoRd toDouble :=
    ⟨by decide +kernel, by decide +kernel, by decide +kernel, by decide +kernel, by decide +kernel, by decide +kernel⟩
  have ht : (Demo.dr 7 7 0).Tame43 := ⟨by decide +kernel, by decide +kernel⟩
  have hb : BoxOkRd (Demo.dr 7 7 0) (circleLow toDouble ⟨21 / 100, 2 / 100⟩ (1 / 4))
      (circleHigh toDouble ⟨21 / 100, 2 / 100⟩ (1 / 4)) :=
    ⟨.inr (by decide +kernel), .inl (by decide +kernel), .inl (by decide +kernel), .inl (by decide +kernel)⟩
  obtain ⟨it, xs, h1, h2, -, h3, h4⟩ := C80_circle_unmoved_partial toDouble_precision h ht (by decide +kernel)
    (center := ⟨21 / 100, 2 / 100⟩) (radius := 1 / 4) (by norm_num) (by decide +kernel) (by decide +kernel) hb
  refine ⟨it, xs, h1, h2, ?_, ?_⟩
  · refine h4 _ (((Demo.dr 7 7 0).getPositionRd toDouble ⟨1, 3⟩).getD ⟨0, 0⟩) (by decide +kernel) ?_
    unfold dist2
    decide +kernel
  · intro hm
    obtain ⟨p, hp, hd⟩ := h3 _ hm
    have e : (Demo.dr 7 7 0).getPositionRd toDouble ⟨5, 3⟩ = some (((Demo.dr 7 7 0).getPositionRd toDouble ⟨5, 3⟩).getD ⟨0, 0⟩) := by
      decide +kernel
    rw [e] at hp
    cases hp
    revert hd
    unfold dist2
    decide +kernel

/-- A circle on a moved map: the seam of the buffer runs between rows 2 and 3, the circle is below it. -/
example : ∃ it xs, circleIterRd toDouble ((Demo.dr 7 7 0).setStartIndex ⟨5, 0⟩) ⟨-12 / 100, 2 / 100⟩ (11 / 100) = .ok it ∧
    Visits (ShapeIter.opsRd toDouble) it xs ∧ (⟨2, 3⟩ : Idx) ∈ xs := by
  have h : ((Demo.dr 7 7 0).setStartIndex ⟨5, 0⟩).GeoRd toDouble :=
    ⟨by decide +kernel, by decide +kernel, by decide +kernel, by decide +kernel, by decide +kernel, by decide +kernel⟩
  have ht : ((Demo.dr 7 7 0).setStartIndex ⟨5, 0⟩).Tame43 := ⟨by decide +kernel, by decide +kernel⟩
  have hb : BoxOkRd ((Demo.dr 7 7 0).setStartIndex ⟨5, 0⟩) (circleLow toDouble ⟨-12 / 100, 2 / 100⟩ (11 / 100))
      (circleHigh toDouble ⟨-12 / 100, 2 / 100⟩ (11 / 100)) :=
    ⟨.inl (by decide +kernel), .inl (by decide +kernel), .inl (by decide +kernel), .inl (by decide +kernel)⟩
  obtain ⟨it, xs, h1, h2, -, h3, h4⟩ := C80_circle_partial toDouble_precision h ht
    (center := ⟨-12 / 100, 2 / 100⟩) (radius := 11 / 100) (by decide +kernel) (by decide +kernel) (by decide +kernel) hb
    ⟨by decide +kernel, by decide +kernel⟩
  refine ⟨it, xs, h1, h2, ?_⟩
  refine h4 _ ((((Demo.dr 7 7 0).setStartIndex ⟨5, 0⟩).getPositionRd toDouble ⟨2, 3⟩).getD ⟨0, 0⟩) (by decide +kernel) ?_
  unfold dist2
  decide +kernel

/-- An ellipse of 0.5 x 0.25, turned by the angle with cosine 0.8 and sine 0.6, around (0.01, 0.02). The two square
roots are rounded up to a hundredth. -/
example : ∃ it xs, ellipseIterRd toDouble (fun x => if x ≤ 19 / 100 then 43 / 100 else 44 / 100) (Demo.dr 7 7 0)
      ⟨1 / 100, 2 / 100⟩ ⟨1 / 2, 1 / 4⟩ (4 / 5) (3 / 5) = .ok it ∧
    Visits (ShapeIter.opsRd toDouble) it xs ∧ (⟨3, 3⟩ : Idx) ∈ xs ∧ (⟨2, 4⟩ : Idx) ∉ xs := by
  have h : (Demo.dr 7 7 0).GeoRd toDouble :=
    ⟨by decide +kernel, by decide +kernel, by decide +kernel, by decide +kernel, by decide +kernel, by decide +kernel⟩
  have ht : (Demo.dr 7 7 0).Tame43 := ⟨by decide +kernel, by decide +kernel⟩
  obtain ⟨it, xs, h1, h2, -, h3, h4⟩ := C80_ellipse_unmoved_partial toDouble_precision h ht (by decide +kernel)
    (sqrt := fun x => if x ≤ 19 / 100 then 43 / 100 else 44 / 100)
    (center := ⟨1 / 100, 2 / 100⟩) (len := ⟨1 / 2, 1 / 4⟩) (c := 4 / 5) (s := 3 / 5) (ρ := 2)
    (by norm_num [IsRotation]) (by norm_num) (by norm_num) (by norm_num) (by norm_num) (by norm_num)
    ⟨by decide +kernel, by decide +kernel⟩ ⟨by decide +kernel, by decide +kernel⟩ (by decide +kernel) (by decide +kernel)
    ⟨.inr (by decide +kernel), .inr (by decide +kernel), .inr (by decide +kernel), .inr (by decide +kernel)⟩
  refine ⟨it, xs, h1, h2, ?_, ?_⟩
  · refine h4 _ (((Demo.dr 7 7 0).getPositionRd toDouble ⟨3, 3⟩).getD ⟨0, 0⟩) (by decide +kernel) ?_
    unfold ellipseForm
    decide +kernel
  · intro hm
    obtain ⟨p, hp, hd⟩ := h3 _ hm
    have e : (Demo.dr 7 7 0).getPositionRd toDouble ⟨2, 4⟩ =
        some (((Demo.dr 7 7 0).getPositionRd toDouble ⟨2, 4⟩).getD ⟨0, 0⟩) := by decide +kernel
    rw [e] at hp
    cases hp
    revert hd
    unfold ellipseForm
    decide +kernel

/-- A small ellipse below the seam of a moved map. -/
example : ∃ it xs, ellipseIterRd toDouble (fun _ => 9 / 100) ((Demo.dr 7 7 0).setStartIndex ⟨5, 0⟩)
      ⟨-11 / 100, 1 / 100⟩ ⟨1 / 10, 1 / 20⟩ (4 / 5) (3 / 5) = .ok it ∧
    Visits (ShapeIter.opsRd toDouble) it xs ∧ (⟨2, 3⟩ : Idx) ∈ xs := by
  have h : ((Demo.dr 7 7 0).setStartIndex ⟨5, 0⟩).GeoRd toDouble :=
    ⟨by decide +kernel, by decide +kernel, by decide +kernel, by decide +kernel, by decide +kernel, by decide +kernel⟩
  have ht : ((Demo.dr 7 7 0).setStartIndex ⟨5, 0⟩).Tame43 := ⟨by decide +kernel, by decide +kernel⟩
  obtain ⟨it, xs, h1, h2, -, h3, h4⟩ := C80_ellipse_partial toDouble_precision h ht (sqrt := fun _ => 9 / 100)
    (center := ⟨-11 / 100, 1 / 100⟩) (len := ⟨1 / 10, 1 / 20⟩) (c := 4 / 5) (s := 3 / 5) (ρ := 2)
    (by norm_num [IsRotation]) (by norm_num) (by norm_num) (by norm_num) (by norm_num) (by norm_num)
    ⟨by decide +kernel, by decide +kernel⟩ ⟨by decide +kernel, by decide +kernel⟩ (by decide +kernel) (by decide +kernel)
    (by decide +kernel) (by decide +kernel)
    ⟨.inl (by decide +kernel), .inl (by decide +kernel), .inl (by decide +kernel), .inl (by decide +kernel)⟩
    ⟨by decide +kernel, by decide +kernel⟩
  refine ⟨it, xs, h1, h2, ?_⟩
  refine h4 _ ((((Demo.dr 7 7 0).setStartIndex ⟨5, 0⟩).getPositionRd toDouble ⟨2, 3⟩).getD ⟨0, 0⟩) (by decide +kernel) ?_
  unfold ellipseForm
  decide +kernel

/-- A triangle across the seam of a moved map: the cell around the origin is visited, the cell above the corner is not. -/
example : ∃ it xs, polygonIterRd toDouble ((Demo.dr 7 7 0).setStartIndex ⟨3, 0⟩)
      [⟨-23 / 100, -17 / 100⟩, ⟨24 / 100, -16 / 100⟩, ⟨1 / 100, 22 / 100⟩] = .ok it ∧
    Visits (ShapeIter.opsRd toDouble) it xs ∧ (⟨6, 3⟩ : Idx) ∈ xs := by
  have h : ((Demo.dr 7 7 0).setStartIndex ⟨3, 0⟩).GeoRd toDouble :=
    ⟨by decide +kernel, by decide +kernel, by decide +kernel, by decide +kernel, by decide +kernel, by decide +kernel⟩
  have ht : ((Demo.dr 7 7 0).setStartIndex ⟨3, 0⟩).Tame43 := ⟨by decide +kernel, by decide +kernel⟩
  have hbox : IsBox [(⟨-23 / 100, -17 / 100⟩ : Vec ℚ), ⟨24 / 100, -16 / 100⟩, ⟨1 / 100, 22 / 100⟩]
      ⟨-23 / 100, -17 / 100⟩ ⟨24 / 100, 22 / 100⟩ :=
    ⟨by decide +kernel, by decide +kernel, by decide +kernel, by decide +kernel, by decide +kernel⟩
  have hb : BoxOkRd ((Demo.dr 7 7 0).setStartIndex ⟨3, 0⟩) ⟨-23 / 100, -17 / 100⟩ ⟨24 / 100, 22 / 100⟩ :=
    ⟨.inl (by decide +kernel), .inl (by decide +kernel), .inl (by decide +kernel), .inl (by decide +kernel)⟩
  obtain ⟨it, xs, h1, h2, -, h3, h4⟩ := C80_polygon_partial toDouble_precision h ht hbox hb (W := 1) (by decide +kernel)
    (by decide +kernel)
  refine ⟨it, xs, h1, h2, ?_⟩
  have hp : ((Demo.dr 7 7 0).setStartIndex ⟨3, 0⟩).getPositionRd toDouble ⟨6, 3⟩ =
      some ((((Demo.dr 7 7 0).setStartIndex ⟨3, 0⟩).getPositionRd toDouble ⟨6, 3⟩).getD ⟨0, 0⟩) := by decide +kernel
  have hx : |((((Demo.dr 7 7 0).setStartIndex ⟨3, 0⟩).getPositionRd toDouble ⟨6, 3⟩).getD ⟨0, 0⟩).x| ≤ 1 / 100 := by
    decide +kernel
  have hy : |((((Demo.dr 7 7 0).setStartIndex ⟨3, 0⟩).getPositionRd toDouble ⟨6, 3⟩).getD ⟨0, 0⟩).y| ≤ 1 / 100 := by
    decide +kernel
  have hin : polygonInside [(⟨-23 / 100, -17 / 100⟩ : Vec ℚ), ⟨24 / 100, -16 / 100⟩, ⟨1 / 100, 22 / 100⟩]
      ((((Demo.dr 7 7 0).setStartIndex ⟨3, 0⟩).getPositionRd toDouble ⟨6, 3⟩).getD ⟨0, 0⟩) = true := by decide +kernel
  refine (h4 _ _ hp ?_).mpr ((polygonInside_iff _ _).mp hin)
  generalize (((Demo.dr 7 7 0).setStartIndex ⟨3, 0⟩).getPositionRd toDouble ⟨6, 3⟩).getD ⟨0, 0⟩ = p at hx hy
  rw [abs_le] at hx hy
  intro e he t t0 t1 hyt
  have he' : e = (⟨-23 / 100, -17 / 100⟩, ⟨24 / 100, -16 / 100⟩) ∨ e = (⟨24 / 100, -16 / 100⟩, ⟨1 / 100, 22 / 100⟩) ∨
      e = (⟨1 / 100, 22 / 100⟩, ⟨-23 / 100, -17 / 100⟩) := by
    simpa [polygonEdges] using he
  rcases he' with rfl | rfl | rfl <;> simp only at hyt ⊢ <;> rw [lt_abs]
  · exfalso; linarith
  · left; linarith
  · right; linarith

/-- D34. C80 is false of the code at the border of the map: a map of 161 x 3 cells of 0.1 with its lower end at the origin of
the frame, and a circle of radius 0.06 around the centre of its last row. The iterator visits the cell, and the next step reads
a position that was never written, because it looks at row 161, one beyond the last. -/
theorem C80_false_at_the_border :
    (Demo.dr 161 3 (805 / 100)).GeoRd toDouble ∧ (Demo.dr 161 3 (805 / 100)).Tame43 ∧
    ∃ it, circleIterRd toDouble (Demo.dr 161 3 (805 / 100)) ⟨toDouble (5 / 100), 0⟩ (toDouble (6 / 100)) = .ok it ∧
      (ShapeIter.opsRd toDouble).isPastEnd it = false ∧ (ShapeIter.opsRd toDouble).next it = .ub := by
  refine ⟨⟨by decide +kernel, by decide +kernel, by decide +kernel, by decide +kernel, by decide +kernel,
    by decide +kernel⟩, ⟨by decide +kernel, by decide +kernel⟩, ?_⟩
  have key : (match circleIterRd toDouble (Demo.dr 161 3 (805 / 100)) ⟨toDouble (5 / 100), 0⟩ (toDouble (6 / 100)) with
    | .ok it => !it.internal.pastEnd && (match it.nextRd toDouble with
      | .ub => true
      | _ => false)
    | _ => false) = true := by decide +kernel
  cases hc : circleIterRd toDouble (Demo.dr 161 3 (805 / 100)) ⟨toDouble (5 / 100), 0⟩ (toDouble (6 / 100)) with
  | ok it =>
    rw [hc] at key
    simp only [Bool.and_eq_true, Bool.not_eq_true'] at key
    refine ⟨it, rfl, key.1, ?_⟩
    have k2 := key.2
    show it.nextRd toDouble = .ub
    cases hn : it.nextRd toDouble with
    | ub => rfl
    | _ => rw [hn] at k2; simp at k2
  | _ => rw [hc] at key; simp at key

end CostMapModel

import Verif.Lemmas.Rounded
import Verif.Props.Move

/-!
# Geometry in floating point: C73 - C75

Everything is proved for any arithmetic whose operations have a relative error of at most `2^-53`; `C73_double` says
that rounding to the nearest `double` is such an arithmetic.
-/

set_option linter.unusedSectionVars false

namespace CostMapModel
open CostMap
variable {K : Type} [Field K] [LinearOrder K] [IsStrictOrderedRing K] [FloorRing K]

theorem axis_x {rd : K → K} {m : CostMap K} (h : m.GeoRd rd) (ht : m.Tame) :
    Axis rd m.size.x m.position.x m.length.x m.resolution (extent m.size.x m.position.x m.resolution) :=
  ⟨h.res_pos, h.size_x, h.len_x, rfl, ht.x⟩

theorem axis_y {rd : K → K} {m : CostMap K} (h : m.GeoRd rd) (ht : m.Tame) :
    Axis rd m.size.y m.position.y m.length.y m.resolution (extent m.size.y m.position.y m.resolution) :=
  ⟨h.res_pos, h.size_y, h.len_y, rfl, ht.y⟩

theorem tolX_eq (m : CostMap K) : m.tolX = 32 * (extent m.size.x m.position.x m.resolution / 2 ^ 53) := by
  unfold tolX; rw [← mul_div_assoc, div_eq_div_iff (by positivity) (by positivity)]; ring

theorem tolY_eq (m : CostMap K) : m.tolY = 32 * (extent m.size.y m.position.y m.resolution / 2 ^ 53) := by
  unfold tolY; rw [← mul_div_assoc, div_eq_div_iff (by positivity) (by positivity)]; ring

/-! ## C73: the round trip -/

/-- C73. Without rounding the functions are those of the exact model. -/
theorem C73_exact_arithmetic (m : CostMap K) (p : Vec K) (i : Idx) (l : String) (v : Cost) (len : Vec K) (r : K) :
    m.getIndexRd id p = m.getIndex p ∧ m.getPositionRd id i = m.getPosition i ∧
    m.isInsideRd id p = m.isInside p ∧ m.atPositionRd id l p = m.atPosition l p ∧
    setAtPositionRd id l p v m = setAtPosition l p v m ∧ setGeometryRd id len r p m = setGeometry len r p m ∧
    moveRd id p m = move p m := by
  refine ⟨rfl, rfl, rfl, rfl, rfl, rfl, rfl⟩

/-- C73. Rounding to the nearest `double` has the precision assumed. -/
theorem C73_double : DoublePrecision toDouble := toDouble_precision

/-- C73. Index to position to index is the identity in floating point, for every cell of every map. -/
theorem C73_round_trip {rd : K → K} (hrd : DoublePrecision rd) {m : CostMap K} (h : m.GeoRd rd) (ht : m.Tame) {i : Idx}
    (hi : i.In m.size) :
    ∃ p, m.getPositionRd rd i = some p ∧ m.isInsideRd rd p = true ∧ m.getIndexRd rd p = (i, true) := by
  obtain ⟨u1, u2, u3, u4⟩ := unwrapIdx_in hi h.start
  obtain ⟨x1, x2, x3⟩ := (axis_x h ht).centre_cell hrd u1 u2
  obtain ⟨y1, y2, y3⟩ := (axis_y h ht).centre_cell hrd u3 u4
  have hin : m.isInsideRd rd ⟨centreRd rd (unwrapIdx i m.size m.startIndex).x m.length.x m.position.x m.resolution,
      centreRd rd (unwrapIdx i m.size m.startIndex).y m.length.y m.position.y m.resolution⟩ = true := by
    simp only [isInsideRd, withinMapRd, Bool.and_eq_true, decide_eq_true_eq]
    exact ⟨⟨⟨x1, y1⟩, x2⟩, y2⟩
  refine ⟨_, by simp only [getPositionRd, positionFromIndexRd, inRange_iff.mpr hi, if_true], hin, ?_⟩
  unfold getIndexRd indexFromPositionRd
  rw [x3, y3]
  exact Prod.ext (buffer_unwrap hi h.start) hin

/-- C73. The computed centre of a cell is the centre of its square, up to the tolerance. -/
theorem C73_centre {rd : K → K} (hrd : DoublePrecision rd) {m : CostMap K} (h : m.GeoRd rd) (ht : m.Tame) {i : Idx}
    (hi : i.In m.size) :
    ∃ p, m.getPositionRd rd i = some p ∧
      |p.x - (m.position.x + ((m.size.x : K) / 2 - (m.logical i).x - 1 / 2) * m.resolution)| ≤ m.tolX ∧
      |p.y - (m.position.y + ((m.size.y : K) / 2 - (m.logical i).y - 1 / 2) * m.resolution)| ≤ m.tolY := by
  have hl : unwrapIdx i m.size m.startIndex = m.logical i := by
    unfold unwrapIdx logical
    split
    · rename_i h0
      obtain ⟨h1, h2, h3, h4⟩ := hi
      rw [h0]; ext
      · simp [Int.emod_eq_of_lt h1 h2]
      · simp [Int.emod_eq_of_lt h3 h4]
    · rfl
  obtain ⟨u1, u2, u3, u4⟩ := unwrapIdx_in hi h.start
  refine ⟨_, by simp only [getPositionRd, positionFromIndexRd, inRange_iff.mpr hi, if_true]; rfl, ?_, ?_⟩
  · have a := axis_x h ht
    have := a.centre_err hrd u1 u2
    have := a.unit_nonneg
    rw [tolX_eq, ← hl]
    rw [show m.position.x + ((m.size.x : K) / 2 - (unwrapIdx i m.size m.startIndex).x - 1 / 2) * m.resolution =
      m.position.x + m.size.x * m.resolution / 2 - m.resolution / 2 -
        m.resolution * (unwrapIdx i m.size m.startIndex).x by ring]
    dsimp only
    linarith
  · have a := axis_y h ht
    have := a.centre_err hrd u3 u4
    have := a.unit_nonneg
    rw [tolY_eq, ← hl]
    rw [show m.position.y + ((m.size.y : K) / 2 - (unwrapIdx i m.size m.startIndex).y - 1 / 2) * m.resolution =
      m.position.y + m.size.y * m.resolution / 2 - m.resolution / 2 -
        m.resolution * (unwrapIdx i m.size m.startIndex).y by ring]
    dsimp only
    linarith

/-- C73. A length within a quarter of a cell of `n` cells gives a map of `n` cells, whatever the rounding; its centre is
the requested one and its stored length is `n` cells up to rounding. -/
theorem C73_geometry {rd : K → K} (hrd : DoublePrecision rd) (m : CostMap K) {len pos : Vec K} {r : K} (hr : 0 < r)
    {n : Idx} (h1 : 1 ≤ n.x ∧ n.x ≤ 2 ^ 47) (h2 : 1 ≤ n.y ∧ n.y ≤ 2 ^ 47) (hx : |len.x / r - n.x| ≤ 1 / 4)
    (hy : |len.y / r - n.y| ≤ 1 / 4) :
    ∃ m', setGeometryRd rd len r pos m = (.ok (), m') ∧ m'.size = n ∧ m'.resolution = r ∧ m'.position = pos ∧
      m'.GeoRd rd ∧ |m'.length.x - n.x * r| ≤ n.x * r / 2 ^ 53 ∧ |m'.length.y - n.y * r| ≤ n.y * r / 2 ^ 53 := by
  have posi : ∀ {l : K} {k : Int}, 1 ≤ k → |l / r - k| ≤ 1 / 4 → 0 < l := by
    intro l k hk h
    have : (1 : K) ≤ k := by exact_mod_cast hk
    rw [abs_le] at h
    by_contra hn
    push Not at hn
    have := div_nonpos_of_nonpos_of_nonneg hn hr.le
    linarith
  have lx := posi h1.1 hx
  have ly := posi h2.1 hy
  have cx := cells_axis hrd h1.1 h1.2 hx
  have cy := cells_axis hrd h2.1 h2.2 hy
  have err : ∀ k : Int, 1 ≤ k → |rd ((k : K) * r) - k * r| ≤ k * r / 2 ^ 53 := by
    intro k hk
    have h0 : (1 : K) ≤ k := by exact_mod_cast hk
    have := hrd ((k : K) * r)
    rwa [abs_of_nonneg (mul_nonneg (by linarith) hr.le)] at this
  unfold setGeometryRd
  rw [if_neg (not_not.2 lx), if_neg (not_not.2 ly), if_neg (not_not.2 hr), cx, cy]
  refine ⟨_, rfl, rfl, rfl, rfl, ⟨hr, h1.1, h2.1, rfl, rfl, ?_⟩, err n.x h1.1, err n.y h2.1⟩
  have n1 := h1.1; have n2 := h2.1
  refine ⟨le_rfl, ?_, le_rfl, ?_⟩
  · show (0 : Int) < n.x; omega
  · show (0 : Int) < n.y; omega

/-! ## C74: positions that are not cell centres -/

/-- C74. The inside test is right except within the tolerance of the border. -/
theorem C74_inside {rd : K → K} (hrd : DoublePrecision rd) {m : CostMap K} (h : m.GeoRd rd) (ht : m.Tame) (p : Vec K) :
    (m.position.x - m.length.x / 2 + m.tolX ≤ p.x ∧ p.x ≤ m.position.x + m.length.x / 2 - m.tolX →
      m.position.y - m.length.y / 2 + m.tolY ≤ p.y ∧ p.y ≤ m.position.y + m.length.y / 2 - m.tolY →
        m.isInsideRd rd p = true) ∧
    (m.isInsideRd rd p = true →
      (m.position.x - m.length.x / 2 - m.tolX ≤ p.x ∧ p.x ≤ m.position.x + m.length.x / 2 + m.tolX) ∧
      (m.position.y - m.length.y / 2 - m.tolY ≤ p.y ∧ p.y ≤ m.position.y + m.length.y / 2 + m.tolY)) := by
  have ax := axis_x h ht
  have ay := axis_y h ht
  simp only [isInsideRd, withinMapRd, Bool.and_eq_true, decide_eq_true_eq]
  constructor
  · rintro ⟨a, b⟩ ⟨c, d⟩
    rw [tolX_eq] at a b
    rw [tolY_eq] at c d
    obtain ⟨x0, x1⟩ := ax.inside_of hrd a b
    obtain ⟨y0, y1⟩ := ay.inside_of hrd c d
    exact ⟨⟨⟨x0, y0⟩, x1⟩, y1⟩
  · rintro ⟨⟨⟨x0, y0⟩, x1⟩, y1⟩
    have nx := ax.inside_near hrd x0 x1
    have ny := ay.inside_near hrd y0 y1
    have lx := ax.len_err hrd
    have ly := ay.len_err hrd
    have ux := ax.unit_nonneg
    have uy := ay.unit_nonneg
    rw [abs_le] at nx ny lx ly
    rw [tolX_eq, tolY_eq]
    refine ⟨⟨?_, ?_⟩, ?_, ?_⟩ <;> linarith

/-- C74 (partial: positions at least the tolerance away from the lower borders; false without that, see
`C74_false_out_of_range`). A position that passes the inside test gets an index of the map, and it lies in the square of
that cell, up to the tolerance. -/
theorem C74_containing_cell_partial {rd : K → K} (hrd : DoublePrecision rd) {m : CostMap K} (h : m.GeoRd rd)
    (ht : m.Tame) {p : Vec K} (hin : m.isInsideRd rd p = true)
    (hx : m.position.x - m.length.x / 2 + m.tolX ≤ p.x) (hy : m.position.y - m.length.y / 2 + m.tolY ≤ p.y) :
    ∃ i c, m.getIndexRd rd p = (i, true) ∧ i.In m.size ∧ m.getPositionRd rd i = some c ∧
      |p.x - c.x| ≤ m.resolution / 2 + m.tolX ∧ |p.y - c.y| ≤ m.resolution / 2 + m.tolY := by
  have ax := axis_x h ht
  have ay := axis_y h ht
  have hin' := hin
  simp only [isInsideRd, withinMapRd, Bool.and_eq_true, decide_eq_true_eq] at hin
  obtain ⟨⟨⟨x0, y0⟩, x1⟩, y1⟩ := hin
  obtain ⟨i1, -, i3, i4, i5⟩ := ax.cell_near hrd x0 x1
  obtain ⟨j1, -, j3, j4, j5⟩ := ay.cell_near hrd y0 y1
  have lx := ax.len_err hrd
  have ly := ay.len_err hrd
  have ux := ax.unit_nonneg
  have uy := ay.unit_nonneg
  rw [tolX_eq] at hx
  rw [tolY_eq] at hy
  rw [abs_le] at lx ly
  have i2 := i5 (by linarith)
  have j2 := j5 (by linarith)
  have hu : Idx.In ⟨cellRd rd p.x m.length.x m.position.x m.resolution,
      cellRd rd p.y m.length.y m.position.y m.resolution⟩ m.size := ⟨i1, i2, j1, j2⟩
  have hb := bufferIdx_in hu h.start
  have cx := ax.centre_err hrd i1 i2
  have cy := ay.centre_err hrd j1 j2
  have e : m.getIndexRd rd p = (bufferIdx ⟨cellRd rd p.x m.length.x m.position.x m.resolution,
      cellRd rd p.y m.length.y m.position.y m.resolution⟩ m.size m.startIndex, true) := Prod.ext rfl hin'
  refine ⟨_, _, e, hb, by
    simp only [getPositionRd, positionFromIndexRd, inRange_iff.mpr hb, if_true]
    rw [unwrap_buffer hu h.start], ?_, ?_⟩
  · rw [tolX_eq, abs_le]
    rw [abs_le] at cx
    dsimp only
    constructor <;> linarith
  · rw [tolY_eq, abs_le]
    rw [abs_le] at cy
    dsimp only
    constructor <;> linarith

/-- C74. What can happen at the lower borders: the index of a position that passes the inside test, counted from the upper
corner, is at most one past the last cell. -/
theorem C74_one_past_at_most {rd : K → K} (hrd : DoublePrecision rd) {m : CostMap K} (h : m.GeoRd rd) (ht : m.Tame)
    {p : Vec K} (hin : m.isInsideRd rd p = true) (hs : m.startIndex = 0) :
    0 ≤ (m.getIndexRd rd p).1.x ∧ (m.getIndexRd rd p).1.x ≤ m.size.x ∧
    0 ≤ (m.getIndexRd rd p).1.y ∧ (m.getIndexRd rd p).1.y ≤ m.size.y := by
  simp only [isInsideRd, withinMapRd, Bool.and_eq_true, decide_eq_true_eq] at hin
  obtain ⟨⟨⟨x0, y0⟩, x1⟩, y1⟩ := hin
  obtain ⟨i1, i2, -⟩ := (axis_x h ht).cell_near hrd x0 x1
  obtain ⟨j1, j2, -⟩ := (axis_y h ht).cell_near hrd y0 y1
  have e : (m.getIndexRd rd p).1 = ⟨cellRd rd p.x m.length.x m.position.x m.resolution,
      cellRd rd p.y m.length.y m.position.y m.resolution⟩ := if_pos hs
  rw [e]
  exact ⟨i1, i2, j1, j2⟩

namespace Demo

/-- A map of 7 x 7 cells of 0.1 around (0.1, 0), in `double` arithmetic, with one layer that holds 10 times the row plus
the column. The numbers are the doubles nearest to the decimal ones. -/
def tenths : CostMap ℚ :=
  let d : ℚ := toDouble (1 / 10)
  let m1 := (CostMap.setGeometryRd toDouble ⟨toDouble (7 / 10), toDouble (7 / 10)⟩ d ⟨d, 0⟩ (CostMap.new [])).2
  (CostMap.add "a" (Mat.ofFn 7 7 fun i j => UInt8.ofNat (10 * i.toNat + j.toNat)) m1).2

theorem tenths_geo : tenths.GeoRd toDouble where
  res_pos := by decide +kernel
  size_x := by decide +kernel
  size_y := by decide +kernel
  len_x := by decide +kernel
  len_y := by decide +kernel
  start := by decide +kernel

theorem tenths_tame : tenths.Tame := ⟨by decide +kernel, by decide +kernel⟩

end Demo

/-- D30. C74 is false of the code at the lower border: on a map of 7 x 7 cells of 0.1 around (0.1, 0), the position
(-0.25, 0) passes the inside test and gets row 7, which does not exist; reading there is undefined behaviour. -/
theorem C74_false_out_of_range :
    Demo.tenths.GeoRd toDouble ∧ Demo.tenths.Tame ∧ Demo.tenths.size = ⟨7, 7⟩ ∧
    Demo.tenths.isInsideRd toDouble ⟨-1 / 4, 0⟩ = true ∧
    Demo.tenths.getIndexRd toDouble ⟨-1 / 4, 0⟩ = (⟨7, 3⟩, true) ∧
    Demo.tenths.atPositionRd toDouble "a" ⟨-1 / 4, 0⟩ = .ub :=
  ⟨Demo.tenths_geo, Demo.tenths_tame, by decide +kernel, by decide +kernel, by decide +kernel, by decide +kernel⟩

/-- D30. With a shifted buffer the same position reads the cost of the opposite edge of the map, 0.7 away. -/
theorem C74_false_opposite_edge :
    (Demo.tenths.setStartIndex ⟨1, 0⟩).atPositionRd toDouble "a" ⟨-1 / 4, 0⟩ =
      (Demo.tenths.setStartIndex ⟨1, 0⟩).at "a" ⟨1, 3⟩ ∧
    ((Demo.tenths.setStartIndex ⟨1, 0⟩).getPositionRd toDouble ⟨1, 3⟩).any (fun c => decide (c.x > 39 / 100)) = true :=
  ⟨by decide +kernel, by decide +kernel⟩

example : ∃ p, Demo.tenths.getPositionRd toDouble ⟨6, 3⟩ = some p ∧
    Demo.tenths.getIndexRd toDouble p = (⟨6, 3⟩, true) := by
  obtain ⟨p, h1, -, h2⟩ := C73_round_trip C73_double Demo.tenths_geo Demo.tenths_tame (i := ⟨6, 3⟩) (by decide +kernel)
  exact ⟨p, h1, h2⟩
example : ∃ i c, Demo.tenths.getIndexRd toDouble ⟨-24 / 100, 1 / 5⟩ = (i, true) ∧ i.In Demo.tenths.size ∧
    Demo.tenths.getPositionRd toDouble i = some c := by
  obtain ⟨i, c, h1, h2, h3, -⟩ := C74_containing_cell_partial C73_double Demo.tenths_geo Demo.tenths_tame
    (p := ⟨-24 / 100, 1 / 5⟩) (by decide +kernel) (by decide +kernel) (by decide +kernel)
  exact ⟨i, c, h1, h2, h3⟩
example : |toDouble (7 / 10) / toDouble (1 / 10) - 7| ≤ 1 / 4 := by decide +kernel

end CostMapModel

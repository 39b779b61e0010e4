import Verif.Lemmas.Machine
import Verif.Props.RoundedMove
import Verif.Props.RoundedSubmap
import Verif.Props.Iterators
import Verif.Props.Line

/-!
# Indices in 32-bit integers: C79

`getIndexI`, `moveI` and so on compute with `int`s and give `none` or `Res.ub` on overflow. On maps with at most `2^29` rows and
columns, and for positions at most `2^29` cells away, they never do, and agree with the functions on unbounded integers, so that
what C15, C16, C20 and C73 to C78 say holds of them too. Beyond these limits there are overflows (D33).
-/

set_option linter.unusedSectionVars false

namespace CostMapModel
open CostMap
variable {K : Type} [Field K] [LinearOrder K] [IsStrictOrderedRing K] [FloorRing K]

/-- C79. `getIndex` does not overflow. -/
theorem C79_getIndex {rd : K → K} (hrd : DoublePrecision rd) {m : CostMap K} (h : m.GeoRd rd) (ht : m.Tame) (hm : m.Small)
    {p : Vec K} (hp : m.NearBy p) : m.getIndexI rd p = some (m.getIndexRd rd p) := by
  obtain ⟨x1, x2⟩ := (axis_x h ht).cellI_eq hrd hm.x hp.x
  obtain ⟨y1, y2⟩ := (axis_y h ht).cellI_eq hrd hm.y hp.y
  obtain ⟨s1, s2, s3, s4⟩ := h.start
  unfold getIndexI indexFromPositionI getIndexRd indexFromPositionRd
  rw [x1, Option.bind_some, y1, Option.bind_some, bufferI_eq ⟨⟨h.size_x, hm.x⟩, ⟨h.size_y, hm.y⟩, ⟨s1, s2⟩, ⟨s3, s4⟩, x2, y2⟩]
  rfl

/-- C79. `getPosition` does not overflow, whatever the index. -/
theorem C79_getPosition (rd : K → K) {m : CostMap K} (hs : m.startIndex.In m.size) (hm : m.Small) (i : Idx) :
    m.getPositionI rd i = some (m.getPositionRd rd i) := by
  unfold getPositionI positionFromIndexI getPositionRd positionFromIndexRd
  by_cases hi : inRange i m.size = true
  · rw [if_pos hi, if_pos hi]
    have hi' := inRange_iff.mp hi
    obtain ⟨u1, u2, u3, u4⟩ := unwrapIdx_in hi' hs
    rw [unwrapI_eq (.of_in hs hm.x hm.y hi'), Option.bind_some]
    simp only
    generalize unwrapIdx i m.size m.startIndex = u at u1 u2 u3 u4
    have := hm.x; have := hm.y
    unfold centreI centreRd
    rw [show I32.neg u.x = some (-u.x) from i32_eq (by omega) (by omega),
      show I32.neg u.y = some (-u.y) from i32_eq (by omega) (by omega)]
    rfl
  · rw [if_neg hi, if_neg hi]

/-- C79. Reading and writing at a position do not overflow. -/
theorem C79_access {rd : K → K} (hrd : DoublePrecision rd) {m : CostMap K} (h : m.GeoRd rd) (ht : m.Tame) (hm : m.Small)
    {p : Vec K} (hp : m.NearBy p) (l : String) (v : Cost) :
    m.atPositionI rd l p = m.atPositionRd rd l p ∧ setAtPositionI rd l p v m = setAtPositionRd rd l p v m := by
  have e := C79_getIndex hrd h ht hm hp
  unfold atPositionI setAtPositionI
  rw [e]
  exact ⟨rfl, rfl⟩

/-- C79. Positions in the map are near enough: the index of a position that passes the inside test does not overflow. -/
theorem C79_inside_near {rd : K → K} (hrd : DoublePrecision rd) {m : CostMap K} (h : m.GeoRd rd) (ht : m.Tame) (hm : m.Small)
    {p : Vec K} (hp : m.isInsideRd rd p = true) : m.NearBy p := by
  simp only [isInsideRd, withinMapRd, Bool.and_eq_true, decide_eq_true_eq] at hp
  obtain ⟨⟨⟨x0, y0⟩, x1⟩, y1⟩ := hp
  have key : ∀ {n : Int} {pos len T q : K}, Axis rd n pos len m.resolution T → n ≤ 2 ^ 29 →
      |q - pos| ≤ n * m.resolution / 2 + 24 * (T / 2 ^ 53) → |q - pos| ≤ 2 ^ 29 * m.resolution := by
    intro n pos len T q a hn hq
    have hu := a.unit; have hr := a.r_pos; have hn' := a.nr_pos
    have : (n : K) * m.resolution ≤ 2 ^ 29 * m.resolution := by
      have : (n : K) ≤ 2 ^ 29 := by exact_mod_cast hn
      nlinarith
    nlinarith
  exact ⟨key (axis_x h ht) hm.x ((axis_x h ht).inside_near hrd x0 x1), key (axis_y h ht) hm.y ((axis_y h ht).inside_near hrd y0 y1)⟩

/-- C79. The round trip of C73 with the machine's integers: index to position to index is the identity. -/
theorem C79_round_trip {rd : K → K} (hrd : DoublePrecision rd) {m : CostMap K} (h : m.GeoRd rd) (ht : m.Tame) (hm : m.Small)
    {i : Idx} (hi : i.In m.size) :
    ∃ p, m.getPositionI rd i = some (some p) ∧ m.isInsideRd rd p = true ∧ m.getIndexI rd p = some (i, true) := by
  obtain ⟨p, h1, h2, h3⟩ := C73_round_trip hrd h ht hi
  refine ⟨p, ?_, h2, ?_⟩
  · rw [C79_getPosition rd h.start hm, h1]
  · rw [C79_getIndex hrd h ht hm (C79_inside_near hrd h ht hm h2), h3]

/-- C79. `setGeometry` does not overflow for a length of at most `2^30` cells. -/
theorem C79_setGeometry {rd : K → K} (hrd : DoublePrecision rd) (m : CostMap K) {len : Vec K} {r : K} (hx : len.x ≤ 2 ^ 30 * r)
    (hy : len.y ≤ 2 ^ 30 * r) (pos : Vec K) : setGeometryI rd len r pos m = setGeometryRd rd len r pos m := by
  have key : ∀ {l : K}, 0 < l → 0 < r → l ≤ 2 ^ 30 * r →
      i32 (roundHalfAway (rd (l / r))) = some (roundHalfAway (rd (l / r))) := by
    intro l h0 hr hl
    have q0 : 0 < l / r := div_pos h0 hr
    have q1 : l / r ≤ 2 ^ 30 := by rw [div_le_iff₀ hr]; exact hl
    have e := hrd (l / r)
    rw [abs_of_pos q0, abs_le] at e
    have e' : l / r / 2 ^ 53 ≤ 1 := by rw [div_le_iff₀ (by positivity)]; linarith
    have e2 : l / r / 2 ^ 53 ≤ l / r := div_le_self q0.le (by norm_num)
    have w0 : 0 ≤ rd (l / r) := by linarith [e.1]
    have w1 : rd (l / r) ≤ 2 ^ 30 + 1 := by linarith [e.2]
    unfold roundHalfAway
    rw [if_pos w0]
    have f0 : 0 ≤ ⌊rd (l / r) + 1 / 2⌋ := Int.floor_nonneg.mpr (by linarith)
    have f1 : ⌊rd (l / r) + 1 / 2⌋ < 2 ^ 30 + 2 := by
      rw [Int.floor_lt]
      have : (((2 ^ 30 + 2 : Int)) : K) = 2 ^ 30 + 2 := by norm_num
      rw [this]; linarith
    exact i32_eq (by omega) (by omega)
  unfold setGeometryI setGeometryRd
  split
  · rfl
  · split
    · rfl
    · split
      · rfl
      · rename_i h1 h2 h3
        push Not at h1 h2 h3
        rw [key h1 h3 hx, key h2 h3 hy]

/-- C79. `move` does not overflow for a new position at most `2^29` cells away. -/
theorem C79_move {rd : K → K} (hrd : DoublePrecision rd) {m : CostMap K} (hr : 0 < m.resolution) (hs : m.startIndex.In m.size)
    (hc : m.Coherent) (hl : ClearableOk m) (hm : m.Small) {p : Vec K} (hp : m.NearBy p) : moveI rd p m = moveRd rd p m := by
  obtain ⟨x1, x2⟩ := indexShift1I_eq hrd hr hp.x
  obtain ⟨y1, y2⟩ := indexShift1I_eq hrd hr hp.y
  unfold moveI moveRd moveWithRd
  have e1 : indexShiftI rd ⟨rd (p.x - m.position.x), rd (p.y - m.position.y)⟩ m.resolution =
      some (indexShiftRd rd ⟨rd (p.x - m.position.x), rd (p.y - m.position.y)⟩ m.resolution) := by
    unfold indexShiftI indexShiftRd
    rw [x1, Option.bind_some, y1, Option.bind_some]
  rw [e1, ofOption_some]
  simp only
  obtain ⟨s, hsd⟩ : ∃ s, s = indexShiftRd rd ⟨rd (p.x - m.position.x), rd (p.y - m.position.y)⟩ m.resolution := ⟨_, rfl⟩
  have bx : -2 ^ 30 ≤ s.x ∧ s.x ≤ 2 ^ 30 := by rw [hsd]; exact x2
  have by' : -2 ^ 30 ≤ s.y ∧ s.y ≤ 2 ^ 30 := by rw [hsd]; exact y2
  rw [← hsd]
  have e2 : positionShiftI rd s m.resolution = some (positionShiftRd rd s m.resolution) := by
    unfold positionShiftI positionShiftRd positionShift1I
    rw [show I32.neg s.x = some (-s.x) from i32_eq (by omega) (by omega),
      show I32.neg s.y = some (-s.y) from i32_eq (by omega) (by omega)]
    rfl
  rw [e2, ofOption_some]
  obtain ⟨m1, r1, d1, er1, -⟩ := dropAxis_spec (bnd := clamp1) (fun _ _ => clamp1_range) hc hs s 0 (clearable hc hl)
  have hlc := layersToClear_congr er1.shape
  obtain ⟨m2, r2, d2, er2, -⟩ := dropAxis_spec (bnd := clamp1) (fun _ _ => clamp1_range) (er1.shape.coherent hc)
    (er1.shape.start hs) s 1 (by rw [hlc]; intro l h; rw [er1.exists]; exact clearable hc hl l h)
  have g1 := er1.shape.geo
  have g2 := er2.shape.geo
  have hm1 : m1.Small := ⟨by rw [g1.size]; exact hm.x, by rw [g1.size]; exact hm.y⟩
  have d1' := dropAxisI_eq hs hm bx by' 0
  have d2' := dropAxisI_eq (er1.shape.start hs) hm1 bx by' 1
  rw [d1] at d1'
  rw [d2] at d2'
  rw [Act.bind_ok d1', Act.bind_ok d1, Act.bind_ok d2', Act.bind_ok d2]
  have hs2 : m2.startIndex = m.startIndex := g2.startIndex.trans g1.startIndex
  have hz2 : m2.size = m.size := g2.size.trans g1.size
  obtain ⟨s1, s2, s3, s4⟩ := hs
  have := hm.x; have := hm.y
  have e3 : I32.both I32.add m2.startIndex s = some (m2.startIndex + s) := by
    rw [hs2]
    exact both_eq (i32_eq (by omega) (by omega)) (i32_eq (by omega) (by omega))
  have e4 : I32.both clampI (m2.startIndex + s) m2.size = some (bound2 clamp1 (m2.startIndex + s) m2.size) := by
    rw [hz2]
    exact both_eq (clampI_eq (by omega) (by omega)) (clampI_eq (by omega) (by omega))
  rw [e3, ofOption_some, e4, ofOption_some]

/-- C79. Iterating over the map with the machine's integers visits every cell once (C15). -/
theorem C79_iterate {m : CostMap K} (hs : m.startIndex.In m.size) (hm : m.Small) :
    ∃ it xs, CostMapIter.newI m = some it ∧ Visits CostMapIter.opsI it xs ∧ Enumerates xs (fun i => i.In m.size) ∧
      xs.map m.logical = rowMajor m.size := by
  obtain ⟨xs, h1, h2, -, h4⟩ := C15_visits_every_cell_once hs
  refine ⟨CostMapIter.new m, xs, ?_, CostMapIter.visitsI ⟨hs, hm.x, hm.y, hs⟩ h1, h2, h4⟩
  obtain ⟨s1, s2, s3, s4⟩ := hs
  have := hm.x; have := hm.y
  unfold CostMapIter.newI
  rw [both_eq (i32_eq (z := m.startIndex.x + m.size.x) (by omega) (by omega))
    (i32_eq (z := m.startIndex.y + m.size.y) (by omega) (by omega)), Option.bind_some,
    both_eq (i32_eq (z := m.startIndex.x + m.size.x - 1) (by omega) (by omega))
    (i32_eq (z := m.startIndex.y + m.size.y - 1) (by omega) (by omega)), Option.bind_some,
    both_eq (clampI_eq (by omega) (by omega)) (clampI_eq (by omega) (by omega))]
  rfl

/-- C79. Iterating over a submap with the machine's integers visits each of its cells once (C16). -/
theorem C79_iterate_submap {m : CostMap K} (hs : m.startIndex.In m.size) (hm : m.Small) {tl sz : Idx} (htl : tl.In m.size)
    (hx : 0 < sz.x) (hy : 0 < sz.y) (fx : (m.logical tl).x + sz.x ≤ m.size.x) (fy : (m.logical tl).y + sz.y ≤ m.size.y) :
    ∃ xs, Visits SubmapIter.opsI (SubmapIter.new m tl sz) xs ∧
      Enumerates xs (fun i => i.In m.size ∧ (m.logical i - m.logical tl).In sz) := by
  obtain ⟨xs, h1, -, -, h4, -⟩ := C16_visits_exactly_the_submap hs htl hx hy fx fy
  have hu := unwrapIdx_in htl hs
  rw [unwrap_eq_logical htl] at hu
  obtain ⟨u1, u2, u3, u4⟩ := hu
  have := hm.x; have := hm.y
  refine ⟨_, SubmapIter.visitsI ⟨hs, hm.x, hm.y, htl, ?_, ?_, ⟨?_, ?_⟩, ⟨?_, ?_⟩⟩ (submapIter_visits_fst h1), h4⟩
  · show sz.x ≤ 2 ^ 29; omega
  · show sz.y ≤ 2 ^ 29; omega
  all_goals simp [SubmapIter.new]

/-- C79. A line between cells with indices of at most `2^29` is drawn without overflow, and is the line of C20. -/
theorem C79_line {a b : Idx} (ha : a.Small) (hb : b.Small) :
    ∃ it xs, LineIter.ofIndicesI a b = some it ∧ Visits LineIter.opsI it xs ∧ DiscreteLine a b xs := by
  obtain ⟨xs, h1, h2⟩ := C20_line a b
  obtain ⟨e, ho⟩ := LineIter.ofIndicesI_eq ha hb
  exact ⟨_, xs, e, LineIter.visitsI ho h1, h2⟩

/-- The index of a position that passes the inside test, one call. -/
theorem indexFromPositionI_inside {rd : K → K} (hrd : DoublePrecision rd) {p len pos : Vec K} {r Tx Ty : K} {size start : Idx}
    (ax : Axis rd size.x pos.x len.x r Tx) (ay : Axis rd size.y pos.y len.y r Ty) (hx : size.x ≤ 2 ^ 29) (hy : size.y ≤ 2 ^ 29)
    (hs : start.In size) (hin : withinMapRd rd p len pos = true) :
    indexFromPositionI rd p len pos r size start = some (indexFromPositionRd rd p len pos r size start) := by
  simp only [withinMapRd, Bool.and_eq_true, decide_eq_true_eq] at hin
  obtain ⟨⟨⟨x0, y0⟩, x1⟩, y1⟩ := hin
  have key : ∀ {n : Int} {pos len T q : K}, Axis rd n pos len r T → n ≤ 2 ^ 29 →
      |q - pos| ≤ n * r / 2 + 24 * (T / 2 ^ 53) → |q - pos| ≤ 2 ^ 29 * r := by
    intro n pos len T q a hn hq
    have hu := a.unit; have hr := a.r_pos; have hn' := a.nr_pos
    have : (n : K) * r ≤ 2 ^ 29 * r := by
      have : (n : K) ≤ 2 ^ 29 := by exact_mod_cast hn
      nlinarith
    nlinarith
  obtain ⟨e1, b1⟩ := ax.cellI_eq hrd hx (key ax hx (ax.inside_near hrd x0 x1))
  obtain ⟨e2, b2⟩ := ay.cellI_eq hrd hy (key ay hy (ay.inside_near hrd y0 y1))
  obtain ⟨s1, s2, s3, s4⟩ := hs
  unfold indexFromPositionI indexFromPositionRd
  rw [e1, Option.bind_some, e2, Option.bind_some,
    bufferI_eq ⟨⟨ax.n_pos, hx⟩, ⟨ay.n_pos, hy⟩, ⟨s1, s2⟩, ⟨s3, s4⟩, b1, b2⟩]
  rfl

/-- C79. The geometry of a submap is computed without overflow, for the requests of C78. -/
theorem C79_submap {rd : K → K} (hrd : DoublePrecision rd) {m : CostMap K} (h : m.GeoRd rd) (ht : m.Tame43) (hm : m.Small)
    {pos len : Vec K} (hr : RequestOkRd rd m pos len) (hp : CentreOkRd rd m pos len) :
    m.submapGeometryI rd pos len = some (m.submapGeometryRd rd pos len) := by
  obtain ⟨sx, sy⟩ := subAxes hrd h ht hr hp
  obtain ⟨a1, a2, -⟩ := (axis43_x h ht).cut hrd hr.high_x
  obtain ⟨b1, b2, -⟩ := (axis43_y h ht).cut hrd hr.high_y
  obtain ⟨c1, c2, -⟩ := (axis43_x h ht).cut hrd hr.low_x
  obtain ⟨d1, d2, -⟩ := (axis43_y h ht).cut hrd hr.low_y
  obtain ⟨T, hTd⟩ : ∃ T, T = cornerCellRd rd m (highRd rd pos len) := ⟨_, rfl⟩
  obtain ⟨B, hBd⟩ : ∃ B, B = cornerCellRd rd m (lowRd rd pos len) := ⟨_, rfl⟩
  rw [← hTd, ← hBd] at sx sy
  have hT : T.In m.size := ⟨sx.t0, sx.tb.trans_lt sx.bn, sy.t0, sy.tb.trans_lt sy.bn⟩
  have hB : B.In m.size := ⟨sx.t0.trans sx.tb, sx.bn, sy.t0.trans sy.tb, sy.bn⟩
  have w1 : withinMapRd rd (boundPositionRd rd (highRd rd pos len) m.length m.position) m.length m.position = true := by
    unfold withinMapRd boundPositionRd
    simp only [Bool.and_eq_true, decide_eq_true_eq]
    exact ⟨⟨⟨a1, b1⟩, a2⟩, b2⟩
  have w2 : withinMapRd rd (boundPositionRd rd (lowRd rd pos len) m.length m.position) m.length m.position = true := by
    unfold withinMapRd boundPositionRd
    simp only [Bool.and_eq_true, decide_eq_true_eq]
    exact ⟨⟨⟨c1, d1⟩, c2⟩, d2⟩
  have e1 : indexFromPositionRd rd (boundPositionRd rd (highRd rd pos len) m.length m.position) m.length m.position
      m.resolution m.size m.startIndex = (bufferIdx T m.size m.startIndex, true) := by
    rw [hTd]; exact Prod.ext rfl w1
  have e2 : indexFromPositionRd rd (boundPositionRd rd (lowRd rd pos len) m.length m.position) m.length m.position
      m.resolution m.size m.startIndex = (bufferIdx B m.size m.startIndex, true) := by
    rw [hBd]; exact Prod.ext rfl w2
  have f1 := indexFromPositionI_inside hrd (axis43_x h ht) (axis43_y h ht) hm.x hm.y h.start w1
  have f2 := indexFromPositionI_inside hrd (axis43_x h ht) (axis43_y h ht) hm.x hm.y h.start w2
  rw [e1] at f1
  rw [e2] at f2
  have u1 := unwrap_buffer hT h.start
  have u2 := unwrap_buffer hB h.start
  have v1 := unwrapI_eq (.of_in h.start hm.x hm.y (bufferIdx_in hT h.start))
  have v2 := unwrapI_eq (.of_in h.start hm.x hm.y (bufferIdx_in hB h.start))
  rw [u1] at v1
  rw [u2] at v2
  have e3 : positionFromIndexRd rd (bufferIdx T m.size m.startIndex) m.length m.position m.resolution m.size m.startIndex =
      some ⟨centreRd rd T.x m.length.x m.position.x m.resolution, centreRd rd T.y m.length.y m.position.y m.resolution⟩ := by
    unfold positionFromIndexRd
    rw [if_pos (inRange_iff.mpr (bufferIdx_in hT h.start)), u1]
  have f3 := C79_getPosition rd h.start hm (bufferIdx T m.size m.startIndex)
  unfold getPositionI getPositionRd at f3
  rw [e3] at f3
  have hin : withinMapRd rd pos ⟨rd (((B.x - T.x + 1 : Int) : K) * m.resolution), rd (((B.y - T.y + 1 : Int) : K) * m.resolution)⟩
      ⟨Axis.subPosRd rd T.x (B.x - T.x + 1) m.length.x m.position.x m.resolution,
       Axis.subPosRd rd T.y (B.y - T.y + 1) m.length.y m.position.y m.resolution⟩ = true := by
    unfold withinMapRd
    simp only [Bool.and_eq_true, decide_eq_true_eq]
    exact ⟨⟨⟨sx.inside.1, sy.inside.1⟩, sx.inside.2⟩, sy.inside.2⟩
  obtain ⟨t1, t2, t3, t4⟩ := hT
  obtain ⟨q1, q2, q3, q4⟩ := hB
  have tbx := sx.tb; have tby := sy.tb
  have := hm.x; have := hm.y
  have g1 : I32.both I32.sub B T = some (B - T) := both_eq (i32_eq (by omega) (by omega)) (i32_eq (by omega) (by omega))
  have hsx : (B - T + Idx.ones).x = B.x - T.x + 1 := rfl
  have hsy : (B - T + Idx.ones).y = B.y - T.y + 1 := rfl
  have g2 : I32.both I32.add (B - T) Idx.ones = some (B - T + Idx.ones) :=
    both_eq (i32_eq (z := B.x - T.x + 1) (by omega) (by omega)) (i32_eq (z := B.y - T.y + 1) (by omega) (by omega))
  have f4 := indexFromPositionI_inside (size := B - T + Idx.ones) (start := 0) (p := pos)
    (len := ⟨rd (((B.x - T.x + 1 : Int) : K) * m.resolution), rd (((B.y - T.y + 1 : Int) : K) * m.resolution)⟩)
    (pos := ⟨Axis.subPosRd rd T.x (B.x - T.x + 1) m.length.x m.position.x m.resolution,
       Axis.subPosRd rd T.y (B.y - T.y + 1) m.length.y m.position.y m.resolution⟩)
    hrd sx.axis sy.axis (by rw [hsx]; omega)
    (by rw [hsy]; omega) ⟨le_refl _, by rw [hsx, Idx.zero_x]; omega, le_refl _, by rw [hsy, Idx.zero_y]; omega⟩ hin
  simp only [highRd] at e1 f1
  simp only [lowRd] at e2 f2
  unfold submapGeometryI submapInformationI submapGeometryRd submapInformationRd
  simp only [e1, e2, e3, u1, u2, f1, f2, f3, v1, v2, g1, g2, Option.bind_some, Bool.not_true, Bool.false_eq_true, if_false,
    hsx, hsy]
  simp only [Axis.subPosRd] at f4
  rw [f4, Option.bind_some]
  rcases indexFromPositionRd rd pos _ _ m.resolution (B - T + Idx.ones) 0 with ⟨i, b⟩
  cases b <;> rfl

/-! ## D33: the limits -/

namespace Demo
/-- A map of 3 x 3 cells of size 1 around the origin, with a layer "a". -/
def ones : CostMap ℚ := (CostMap.add "a" (Mat.const 3 3 9)
  (CostMap.setGeometryI toDouble ⟨3, 3⟩ 1 ⟨0, 0⟩ (CostMap.new [])).2).2
end Demo

/-- D33. Far outside of the map `atPosition` is undefined behaviour instead of the documented `std::out_of_range`: the index is
computed before the position is checked. The map has 3 x 3 cells of size 1; the position is `2^31 + 5` from it. -/
theorem C79_false_far_away :
    Demo.ones.size = ⟨3, 3⟩ ∧ Demo.ones.isInsideRd toDouble ⟨2 ^ 31 + 5, 0⟩ = false ∧
    Demo.ones.atPositionRd toDouble "a" ⟨2 ^ 31 + 5, 0⟩ = .thrown .outOfRange ∧
    Demo.ones.atPositionI toDouble "a" ⟨2 ^ 31 + 5, 0⟩ = .ub :=
  ⟨by decide +kernel, by decide +kernel, by decide +kernel, by decide +kernel⟩

/-- D33. A move of more than `2^31` cells is undefined behaviour; it should give an empty map around the new position. -/
theorem C79_false_far_move :
    (moveI toDouble ⟨2 ^ 31 + 5, 0⟩ Demo.ones).1 = .ub ∧
    ((moveRd toDouble ⟨2 ^ 31 + 5, 0⟩ Demo.ones).2.position.x = 2 ^ 31 + 5) :=
  ⟨by decide +kernel, by decide +kernel⟩

/-- D33. `setGeometry` with `2^31` or more rows is undefined behaviour, not an error. -/
theorem C79_false_huge_geometry : (setGeometryI toDouble ⟨2 ^ 31, 1⟩ 1 ⟨0, 0⟩ (CostMap.new [] : CostMap ℚ)).1 = .ub := by
  decide +kernel

/-- D33. `getIndex` for a position in the map, but with a buffer of more than `2^30` rows: `index + start` overflows. -/
theorem C79_false_huge_buffer :
    bufferI ⟨2 ^ 30 + 1, 0⟩ ⟨2 ^ 30 + 3, 3⟩ ⟨2 ^ 30 + 2, 0⟩ = none ∧
      bufferIdx ⟨2 ^ 30 + 1, 0⟩ ⟨2 ^ 30 + 3, 3⟩ ⟨2 ^ 30 + 2, 0⟩ = ⟨2 ^ 30, 0⟩ :=
  ⟨by decide +kernel, by decide +kernel⟩

/-- D33. A line between cells `2^31` apart: already the distance overflows. -/
theorem C79_false_long_line : LineIter.ofIndicesI ⟨-2 ^ 30, 0⟩ ⟨2 ^ 30, 0⟩ = none := by decide +kernel

namespace Demo
theorem ones_geo : ones.GeoRd toDouble where
  res_pos := by decide +kernel
  size_x := by decide +kernel
  size_y := by decide +kernel
  len_x := by decide +kernel
  len_y := by decide +kernel
  start := by decide +kernel
theorem ones_tame : ones.Tame := ⟨by decide +kernel, by decide +kernel⟩
theorem ones_small : ones.Small := ⟨by decide +kernel, by decide +kernel⟩
end Demo

/-- 500 million cells away from the map reading still throws. -/
example : Demo.ones.atPositionI toDouble "a" ⟨500000000, -7⟩ = .thrown .outOfRange := by
  rw [(C79_access C73_double Demo.ones_geo Demo.ones_tame Demo.ones_small ⟨by decide +kernel, by decide +kernel⟩ "a" 0).1]
  decide +kernel

example : ∃ p, Demo.tenths.getPositionI toDouble ⟨6, 3⟩ = some (some p) ∧ Demo.tenths.getIndexI toDouble p = some (⟨6, 3⟩, true) := by
  obtain ⟨p, h1, -, h2⟩ := C79_round_trip C73_double Demo.tenths_geo Demo.tenths_tame ⟨by decide +kernel, by decide +kernel⟩
    (i := ⟨6, 3⟩) (by decide +kernel)
  exact ⟨p, h1, h2⟩

example : ∃ it xs, CostMapIter.newI (Demo.ones.setStartIndex ⟨1, 2⟩) = some it ∧ Visits CostMapIter.opsI it xs ∧
    xs.map (Demo.ones.setStartIndex ⟨1, 2⟩).logical = rowMajor ⟨3, 3⟩ := by
  obtain ⟨it, xs, h1, h2, -, h3⟩ := C79_iterate (m := Demo.ones.setStartIndex ⟨1, 2⟩) (by decide +kernel)
    ⟨by decide +kernel, by decide +kernel⟩
  exact ⟨it, xs, h1, h2, h3.trans (congrArg rowMajor (by decide +kernel))⟩

example : ∃ it xs, LineIter.ofIndicesI ⟨1, 7⟩ ⟨400000000, 4⟩ = some it ∧ Visits LineIter.opsI it xs ∧
    DiscreteLine ⟨1, 7⟩ ⟨400000000, 4⟩ xs :=
  C79_line ⟨by decide +kernel, by decide +kernel⟩ ⟨by decide +kernel, by decide +kernel⟩

/-- The submap of the example of C78. -/
example : ((Demo.dr 7 7 0).submapGeometryI toDouble ⟨21 / 100, 2 / 100⟩ ⟨1 / 2, 9 / 10⟩).any Option.isSome = true := by
  rw [C79_submap toDouble_precision (m := Demo.dr 7 7 0)
    ⟨by decide +kernel, by decide +kernel, by decide +kernel, by decide +kernel, by decide +kernel, by decide +kernel⟩
    ⟨by decide +kernel, by decide +kernel⟩ ⟨by decide +kernel, by decide +kernel⟩
    ⟨.inr (by decide +kernel), .inr (by decide +kernel), .inl (by decide +kernel), .inr (by decide +kernel)⟩
    ⟨by decide +kernel, by decide +kernel, by decide +kernel, by decide +kernel, by decide +kernel, by decide +kernel⟩]
  decide +kernel

/-- A move by half a cell and 500 million cells. -/
example : (moveI toDouble ⟨1 / 2, -500000000⟩ Demo.ones).2.position = ⟨1, -500000000⟩ := by
  have hc : Demo.ones.Coherent := by
    have h0 : (CostMap.new [] : CostMap ℚ).Coherent := CostMap.new_coherent (by simp)
    have h1 := setGeometryRd_coherent toDouble_precision ⟨3, 3⟩ 1 ⟨0, 0⟩ _ h0
    rw [← C79_setGeometry toDouble_precision _ (by decide +kernel) (by decide +kernel)] at h1
    exact CostMap.add_coherent _ _ _ h1
  have hl : ClearableOk Demo.ones := by
    have : Demo.ones.basicLayers = [] := by decide +kernel
    intro l h; rw [this] at h; cases h
  rw [C79_move toDouble_precision Demo.ones_geo.res_pos Demo.ones_geo.start hc hl Demo.ones_small
    ⟨by decide +kernel, by decide +kernel⟩]
  decide +kernel

end CostMapModel

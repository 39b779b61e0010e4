import Verif.Lemmas.Ieee
import Verif.Lemmas.InflationUse
import Verif.Props.Machine

/-!
# Infinities, NaN and overflow: C90

`m.toDbl` and `p.toDbl` are the map `m` and the position `p` with their coordinates as `double`s. `isInside` is right about every
`double`. The other functions are right about numbers that are not extremely large, but have undefined behaviour for a position that
is not a number, and `setGeometry` accepts a position or resolution that is not a number (D43).
-/

set_option linter.unusedSectionVars false

namespace CostMapModel
open CostMap
variable {K : Type} [Field K] [LinearOrder K] [IsStrictOrderedRing K] [FloorRing K] {F : Fmt K}

/-- C90. What is inside is a number, and so are the length and the position of the map it is in. -/
theorem C90_inside_number (m : CostMap (Dbl K)) (p : Vec (Dbl K)) (h : m.isInsideD F p = true) :
    p.IsNum ∧ m.length.IsNum ∧ m.position.IsNum := by
  simp only [isInsideD, withinMapD, Bool.and_eq_true] at h
  obtain ⟨⟨⟨x0, y0⟩, x1⟩, y1⟩ := h
  have hx := fromBorderD_num x0 x1
  have hy := fromBorderD_num y0 y1
  exact ⟨⟨hx.1, hy.1⟩, ⟨hx.2.1, hy.2.1⟩, ⟨hx.2.2, hy.2.2⟩⟩

/-- C90. For numbers, however large, `isInside` answers as if nothing could overflow. -/
theorem C90_inside_same (hF : F.Double) (m : CostMap K) (hx : F.Holds m.length.x) (hy : F.Holds m.length.y) (p : Vec K) :
    m.toDbl.isInsideD F p.toDbl = m.isInsideRd F.rd p := by
  have h1 := fromBorderD_same (p := p.x) (pos := m.position.x) hF hx
  have h2 := fromBorderD_same (p := p.y) (pos := m.position.y) hF hy
  rw [Bool.eq_iff_iff]
  simp only [isInsideD, withinMapD, isInsideRd, withinMapRd, Bool.and_eq_true, decide_eq_true_eq]
  simp only [CostMap.toDbl, Vec.toDbl]
  tauto

/-- C90. Reading and writing at a position that is not a number, and asking for its index, have undefined behaviour in every map. In
a map whose length or position is not a number, they have at every position. -/
theorem C90_index_undefined (m : CostMap (Dbl K)) (p : Vec (Dbl K)) (h : ¬ p.IsNum ∨ ¬ m.length.IsNum ∨ ¬ m.position.IsNum)
    (l : String) (v : Cost) :
    m.getIndexD F p = none ∧ m.atPositionD F l p = .ub ∧ setAtPositionD F l p v m = (.ub, m) := by
  have e : m.getIndexD F p = none := by
    rcases e : m.getIndexD F p with _ | r
    · rfl
    · exfalso
      unfold getIndexD indexFromPositionD at e
      obtain ⟨x, hx, e⟩ := Option.bind_eq_some_iff.mp e
      obtain ⟨y, hy, e⟩ := Option.bind_eq_some_iff.mp e
      have nx := cellD_num hx
      have ny := cellD_num hy
      rcases h with h | h | h
      · exact h ⟨nx.1, ny.1⟩
      · exact h ⟨nx.2.1, ny.2.1⟩
      · exact h ⟨nx.2.2, ny.2.2⟩
  refine ⟨e, ?_, ?_⟩
  · unfold atPositionD; rw [e]
  · unfold setAtPositionD; rw [e]

/-- C90. For moderate numbers, `getIndex` gives what it gives when nothing overflows. -/
theorem C90_index_partial (hF : F.Double) {m : CostMap K} {p : Vec K} (h : F.ModerateAt m p) (hr : 0 < m.resolution) :
    m.toDbl.getIndexD F p.toDbl = m.getIndexI F.rd p := by
  unfold getIndexD indexFromPositionD getIndexI indexFromPositionI
  have e1 := cellD_same hF h.p_x h.len_x h.pos_x hr.ne'
  have e2 := cellD_same hF h.p_y h.len_y h.pos_y hr.ne'
  have e3 := C90_inside_same hF m (hF.holds h.len_x) (hF.holds h.len_y) p
  unfold isInsideD isInsideRd at e3
  rw [e3]
  simp only [CostMap.toDbl, Vec.toDbl]
  rw [e1, e2]

/-- C90. So do reading and writing. -/
theorem C90_access_partial (hF : F.Double) {m : CostMap K} {p : Vec K} (h : F.ModerateAt m p) (hr : 0 < m.resolution)
    (l : String) (v : Cost) :
    m.toDbl.atPositionD F l p.toDbl = m.atPositionI F.rd l p ∧
    setAtPositionD F l p.toDbl v m.toDbl = ((setAtPositionI F.rd l p v m).1, (setAtPositionI F.rd l p v m).2.toDbl) := by
  have e := C90_index_partial hF h hr
  unfold atPositionD setAtPositionD atPositionI setAtPositionI
  rw [e]
  rcases m.getIndexI F.rd p with _ | ⟨i, b⟩
  · exact ⟨rfl, rfl⟩
  · cases b
    · exact ⟨rfl, rfl⟩
    · simp only [if_true]
      refine ⟨rfl, ?_⟩
      unfold setAt
      simp only [CostMap.toDbl, CostMap.setData]
      split
      · rfl
      · split <;> rfl

/-- C90. Moving to a position that is not a number has undefined behaviour for every map, and moving a map whose position is not a
number has. -/
theorem C90_move_undefined (m : CostMap (Dbl K)) (p : Vec (Dbl K)) (h : ¬ p.IsNum ∨ ¬ m.position.IsNum) :
    moveD F p m = (.ub, m) := by
  have e : indexShiftD F ⟨.sub F p.x m.position.x, .sub F p.y m.position.y⟩ m.resolution = none := by
    rcases e : indexShiftD F ⟨.sub F p.x m.position.x, .sub F p.y m.position.y⟩ m.resolution with _ | r
    · rfl
    · exfalso
      unfold indexShiftD at e
      obtain ⟨x, hx, e⟩ := Option.bind_eq_some_iff.mp e
      obtain ⟨y, hy, e⟩ := Option.bind_eq_some_iff.mp e
      have nx := Dbl.sub_num (indexShift1D_num hx)
      have ny := Dbl.sub_num (indexShift1D_num hy)
      rcases h with h | h
      · exact h ⟨nx.1, ny.1⟩
      · exact h ⟨nx.2, ny.2⟩
  unfold moveD
  rw [e]
  rfl

/-- C90. Moving to a moderate position does what it does when nothing overflows. -/
theorem C90_move_partial (hF : F.Double) {m : CostMap K} {p : Vec K} (h : F.ModerateAt m p) (hr : 0 < m.resolution) :
    moveD F p.toDbl m.toDbl = ((moveI F.rd p m).1, (moveI F.rd p m).2.toDbl) := by
  have ht := hF.top_pos
  have hres : m.resolution ≤ F.top / 8 := (le_abs_self _).trans h.res
  have hd : ∀ {a b : K}, F.Moderate a → F.Moderate b →
      Dbl.sub F (.fin a) (.fin b) = .fin (F.rd (a - b)) ∧ |F.rd (a - b)| ≤ 17 / 64 * F.top := by
    intro a b ha hb
    have ha' : |a| ≤ F.top / 8 := ha
    have hb' : |b| ≤ F.top / 8 := hb
    have h1 := hF.rd_le (a - b)
    have h2 := abs_sub a b
    refine ⟨?_, by linarith⟩
    rw [Dbl.sub_fin, Dbl.round_fin (by linarith)]
  obtain ⟨ex, bx⟩ := hd h.p_x h.pos_x
  obtain ⟨ey, bY⟩ := hd h.p_y h.pos_y
  have hs : indexShiftD F ⟨.sub F p.toDbl.x m.toDbl.position.x, .sub F p.toDbl.y m.toDbl.position.y⟩ m.toDbl.resolution =
      indexShiftI F.rd ⟨F.rd (p.x - m.position.x), F.rd (p.y - m.position.y)⟩ m.resolution := by
    simp only [CostMap.toDbl, Vec.toDbl]
    rw [ex, ey]
    unfold indexShiftD indexShiftI
    rw [indexShift1D_same hF hr.ne', indexShift1D_same hF hr.ne']
  unfold moveD moveI
  rw [hs]
  rcases e : indexShiftI F.rd ⟨F.rd (p.x - m.position.x), F.rd (p.y - m.position.y)⟩ m.resolution with _ | shift
  · rfl
  unfold indexShiftI at e
  obtain ⟨sx, hsx, e⟩ := Option.bind_eq_some_iff.mp e
  obtain ⟨sy, hsy, e⟩ := Option.bind_eq_some_iff.mp e
  have e : shift = ⟨sx, sy⟩ := (Option.some.inj e).symm
  -- the aligned shift along one axis
  have ha : ∀ {s q : K} {i : Int}, |s| ≤ 17 / 64 * F.top → F.Moderate q → indexShift1I F.rd s m.resolution = some i →
      (positionShift1D F i (.fin m.resolution) = (positionShift1I F.rd i m.resolution).map .fin) ∧
      (∀ a, positionShift1I F.rd i m.resolution = some a → Dbl.add F (.fin q) (.fin a) = .fin (F.rd (q + a))) := by
    intro s q i hs hq hi
    have hq' : |q| ≤ F.top / 8 := hq
    have h1 := indexShift1I_le hF hr hi
    have h2 := hF.rd_le (((-i : Int) : K) * m.resolution)
    constructor
    · unfold positionShift1D positionShift1I I32.neg
      rcases h3 : i32 (-i) with _ | v
      · rfl
      · have hv : v = -i := i32_some h3
        subst hv
        show some (Dbl.round F _) = some _
        rw [Dbl.round_fin (by linarith)]
    · intro a ha
      unfold positionShift1I at ha
      obtain ⟨v, h3, h4⟩ := Option.bind_eq_some_iff.mp ha
      have hv : v = -i := i32_some h3
      subst hv
      have h4 := (Option.some.inj h4).symm
      rw [← h4] at h2
      have h5 := hF.rd_le (q + a)
      have h6 := abs_add_le q a
      exact Dbl.round_fin (by linarith)
  obtain ⟨ax, ax'⟩ := ha bx h.pos_x hsx
  obtain ⟨ay, ay'⟩ := ha bY h.pos_y hsy
  have hps : positionShiftD F shift m.toDbl.resolution = (positionShiftI F.rd shift m.resolution).map Vec.toDbl := by
    unfold positionShiftD positionShiftI
    rw [e]
    simp only [CostMap.toDbl]
    rw [ax, ay]
    cases positionShift1I F.rd sx m.resolution with
    | none => rfl
    | some a => cases positionShift1I F.rd sy m.resolution <;> rfl
  rw [ofOption_some, ofOption_some, hps]
  rcases e' : positionShiftI F.rd shift m.resolution with _ | aligned
  · rfl
  unfold positionShiftI at e'
  rw [e] at e'
  obtain ⟨x, hx, e'⟩ := Option.bind_eq_some_iff.mp e'
  obtain ⟨y, hy, e'⟩ := Option.bind_eq_some_iff.mp e'
  have e' : aligned = ⟨x, y⟩ := (Option.some.inj e').symm
  rw [Option.map_some, ofOption_some, ofOption_some]
  have h0 := SameAct.dropAxisI (K := K) shift 0 m
  unfold Act.bind
  rw [h0.1]
  rcases hf : dropAxisI shift 0 m with ⟨r, m1⟩
  rw [hf] at h0
  cases r
  case ok r0 =>
    simp only []
    have h1 := SameAct.dropAxisI (K := K) shift 1 m1
    rw [h1.1]
    rcases hf1 : dropAxisI shift 1 m1 with ⟨r, m2⟩
    rw [hf1] at h1
    cases r
    case ok r1 =>
      have hpos : m2.position = m.position := h1.2.trans h0.2
      simp only []
      have hst : m2.toDbl.startIndex = m2.startIndex := rfl
      have hsz : m2.toDbl.size = m2.size := rfl
      rw [hst]
      cases I32.both I32.add m2.startIndex shift with
      | none => rfl
      | some s =>
        simp only [Act.ofOption, Res.ofOption]
        rw [hsz]
        cases I32.both clampI s m2.size with
        | none => rfl
        | some s' =>
          simp only []
          rw [e']
          simp only [CostMap.toDbl, Vec.toDbl]
          rw [hpos, ax' x hx, ay' y hy]
    all_goals rfl
  all_goals rfl

/-- C90. A length or resolution that is NaN fails an assertion, and the map stays as it is. -/
theorem C90_setGeometry_nan (m : CostMap (Dbl K)) (len : Vec (Dbl K)) (res : Dbl K) (pos : Vec (Dbl K))
    (h : len.x = .nan ∨ len.y = .nan ∨ res = .nan) : setGeometryD F len res pos m = (.assertFail, m) := by
  unfold setGeometryD
  rcases h with h | h | h
  · rw [h, if_pos (by simp [Dbl.lt])]
  · rw [h]
    split
    · rfl
    · rw [if_pos (by simp [Dbl.lt])]
  · rw [h]
    split
    · rfl
    · split
      · rfl
      · rw [if_pos (by simp [Dbl.lt])]

/-- C90. An infinite length is undefined behaviour when the other length and the resolution are positive. -/
theorem C90_setGeometry_infinite (m : CostMap (Dbl K)) (len : Vec (Dbl K)) (res : Dbl K) (pos : Vec (Dbl K))
    (hx : Dbl.lt (.fin 0) len.x = true) (hy : Dbl.lt (.fin 0) len.y = true) (hr : Dbl.lt (.fin 0) res = true)
    (h : len.x = .pinf ∨ len.y = .pinf) : setGeometryD F len res pos m = (.ub, m) := by
  have key : Dbl.roundToInt (Dbl.div F .pinf res) = none := by
    cases res
    · simp only [Dbl.div]; split <;> rfl
    all_goals rfl
  unfold setGeometryD
  rw [if_neg (by simp [hx]), if_neg (by simp [hy]), if_neg (by simp [hr])]
  rcases h with h | h
  · rw [h, key]
  · rw [h, key]
    cases Dbl.roundToInt (Dbl.div F len.x res) <;> rfl

/-- C90. With an infinite resolution and positive lengths `setGeometry` succeeds. The map has no cells and a length that is not a number. -/
theorem C90_setGeometry_resolution (m : CostMap (Dbl K)) {x y : K} (hx : 0 < x) (hy : 0 < y) (pos : Vec (Dbl K)) :
    ∃ m', setGeometryD F ⟨.fin x, .fin y⟩ .pinf pos m = (.ok (), m') ∧ m'.size = ⟨0, 0⟩ ∧ m'.resolution = .pinf ∧
      m'.length = ⟨.nan, .nan⟩ := by
  have key : ∀ z : K, Dbl.roundToInt (Dbl.div F (.fin z) .pinf) = some 0 := by
    intro z
    show i32 (roundHalfAway (0 : K)) = some 0
    have : roundHalfAway (0 : K) = 0 := by
      unfold roundHalfAway
      rw [if_pos le_rfl, Int.floor_eq_iff]
      norm_num
    rw [this]; rfl
  unfold setGeometryD
  rw [if_neg (by simp [Dbl.lt, hx]), if_neg (by simp [Dbl.lt, hy]), if_neg (by simp [Dbl.lt])]
  rw [key, key]
  refine ⟨_, rfl, rfl, rfl, ?_⟩
  simp [Dbl.mul, Dbl.ofInt, Dbl.infOf]

/-- C90. A position that is not a number is accepted when the lengths and the resolution are. From then on nothing is inside, until the
geometry is set again: `move` has undefined behaviour, and so have reading and writing at a position. -/
theorem C90_setGeometry_position (m m' : CostMap (Dbl K)) (len : Vec (Dbl K)) (res : Dbl K) (pos : Vec (Dbl K)) (hp : ¬ pos.IsNum)
    (h : setGeometryD F len res pos m = (.ok (), m')) (p : Vec (Dbl K)) (l : String) (v : Cost) :
    m'.position = pos ∧ m'.isInsideD F p = false ∧ m'.atPositionD F l p = .ub ∧ setAtPositionD F l p v m' = (.ub, m') ∧
      moveD F p m' = (.ub, m') := by
  have hpos : m'.position = pos := by
    unfold setGeometryD at h
    split at h
    · cases h
    · split at h
      · cases h
      · split at h
        · cases h
        · split at h
          · rw [← (Prod.mk.inj h).2]
          · cases h
  have hn : ¬ m'.position.IsNum := by rw [hpos]; exact hp
  have hi := C90_index_undefined (F := F) m' p (.inr (.inr hn)) l v
  refine ⟨hpos, ?_, hi.2.1, hi.2.2, C90_move_undefined m' p (.inr hn)⟩
  rcases hb : m'.isInsideD F p with _ | _
  · rfl
  · exact absurd (C90_inside_number m' p hb).2.2 hn

/-- C90. For moderate numbers, `setGeometry` does what it does when nothing overflows. -/
theorem C90_setGeometry_partial (hF : F.Double) (m : CostMap K) {len : Vec K} {res : K} (pos : Vec K) (hx : F.Moderate len.x)
    (hy : F.Moderate len.y) (hr : F.Moderate res) :
    setGeometryD F len.toDbl (.fin res) pos.toDbl m.toDbl =
      ((setGeometryI F.rd len res pos m).1, (setGeometryI F.rd len res pos m).2.toDbl) := by
  have ht := hF.top_pos
  unfold setGeometryD setGeometryI
  simp only [Vec.toDbl, Dbl.lt, decide_eq_true_eq]
  by_cases h1 : 0 < len.x
  · by_cases h2 : 0 < len.y
    · by_cases h3 : 0 < res
      · have key : ∀ {z : K} {i : Int}, F.Moderate z → 0 < z → i32 (roundHalfAway (F.rd (z / res))) = some i →
            Dbl.mul F (.ofInt i) (.fin res) = .fin (F.rd ((i : K) * res)) := by
          intro z i hz h0 hi
          have hi := i32_some hi
          have hz' : |z| ≤ F.top / 8 := hz
          have hr' : |res| ≤ F.top / 8 := hr
          rw [abs_of_pos h0] at hz'
          rw [abs_of_pos h3] at hr'
          have q0 : 0 < z / res := div_pos h0 h3
          have e := hF.rd_near (z / res)
          rw [abs_of_pos q0, abs_le] at e
          have w0 : 0 ≤ F.rd (z / res) := by linarith [e.1]
          have f0 : |(i : K)| ≤ 17 / 16 * (z / res) + 1 / 2 := by
            rw [hi]
            unfold roundHalfAway
            rw [if_pos w0, abs_of_nonneg (by exact_mod_cast Int.floor_nonneg.mpr (by linarith))]
            linarith [Int.floor_le (F.rd (z / res) + 1 / 2), e.2]
          have f1 : |(i : K) * res| ≤ 17 / 16 * z + 1 / 2 * res := by
            rw [abs_mul, abs_of_pos h3]
            calc |(i : K)| * res ≤ (17 / 16 * (z / res) + 1 / 2) * res := mul_le_mul_of_nonneg_right f0 h3.le
              _ = _ := by field_simp
          have f2 := hF.rd_le ((i : K) * res)
          exact Dbl.round_fin (by linarith)
        rw [if_neg (not_not.mpr h1), if_neg (not_not.mpr h2), if_neg (not_not.mpr h3), if_neg (not_not.mpr h1),
          if_neg (not_not.mpr h2), if_neg (not_not.mpr h3), Dbl.div_fin h3.ne', Dbl.div_fin h3.ne', roundToInt_round hF,
          roundToInt_round hF]
        rcases ex : i32 (roundHalfAway (F.rd (len.x / res))) with _ | x
        · rfl
        · rcases ey : i32 (roundHalfAway (F.rd (len.y / res))) with _ | y
          · rfl
          · simp only []
            rw [key hx h1 ex, key hy h2 ey]
            rfl
      · simp [h1, h2, h3]
    · simp [h1, h2]
  · simp [h1]

/-! ### Messages -/

/-- C90. A message whose length or resolution is NaN stops the receiver with a failed assertion. -/
theorem C90_message_nan (msg : CostMapMsg (Dbl K)) (m : CostMap (Dbl K))
    (h : msg.lengthX = .nan ∨ msg.lengthY = .nan ∨ msg.resolution = .nan) : (fromMessageD F msg m).1 = .assertFail := by
  unfold fromMessageD
  show (Act.bind (setGeometryD F ⟨msg.lengthX, msg.lengthY⟩ msg.resolution msg.position) _ _).1 = _
  unfold Act.bind
  rw [C90_setGeometry_nan _ _ _ _ h]

/-- C90. A message with an infinite length causes undefined behaviour, if its other fields are positive. -/
theorem C90_message_infinite (msg : CostMapMsg (Dbl K)) (m : CostMap (Dbl K)) (hx : Dbl.lt (.fin 0) msg.lengthX = true)
    (hy : Dbl.lt (.fin 0) msg.lengthY = true) (hr : Dbl.lt (.fin 0) msg.resolution = true)
    (h : msg.lengthX = .pinf ∨ msg.lengthY = .pinf) : (fromMessageD F msg m).1 = .ub := by
  unfold fromMessageD
  show (Act.bind (setGeometryD F ⟨msg.lengthX, msg.lengthY⟩ msg.resolution msg.position) _ _).1 = _
  unfold Act.bind
  rw [C90_setGeometry_infinite _ _ _ _ hx hy hr h]

/-- C90. A message whose position is not a number is accepted like any other; nothing is inside of the map it leaves, and reading at any
position has undefined behaviour. -/
theorem C90_message_position (msg : CostMapMsg (Dbl K)) (m m' : CostMap (Dbl K)) (b : Bool) (hp : ¬ msg.position.IsNum)
    (h : fromMessageD F msg m = (.ok b, m')) (p : Vec (Dbl K)) (l : String) :
    m'.isInsideD F p = false ∧ m'.atPositionD F l p = .ub := by
  have hn : m'.position = msg.position := by
    unfold fromMessageD at h
    obtain ⟨_, m1, -, h⟩ := Act.bind_eq_ok h
    obtain ⟨_, m2, h2, h⟩ := Act.bind_eq_ok h
    have e2 := (C90_setGeometry_position m1 m2 _ _ _ hp h2 ⟨.nan, .nan⟩ "" 0).1
    split at h
    · rw [← (Prod.mk.inj h).2]; exact e2
    · obtain ⟨_, m3, h3, h⟩ := Act.bind_eq_ok h
      obtain ⟨_, m4, h4, h⟩ := Act.bind_eq_ok h
      rw [← (Prod.mk.inj h).2, ← (Prod.mk.inj h4).2]
      exact (forEach_addFromArray_position _ h3).trans e2
  have hn' : ¬ m'.position.IsNum := by rw [hn]; exact hp
  refine ⟨?_, (C90_index_undefined m' p (.inr (.inr hn')) l 0).2.1⟩
  rcases hb : m'.isInsideD F p with _ | _
  · rfl
  · exact absurd (C90_inside_number m' p hb).2.2 hn'

/-! ### What is false -/

/-- Binary64. -/
def binary64 : Fmt ℚ := ⟨toDouble, 2 ^ 1024⟩

theorem binary64_double : binary64.Double := ⟨toDouble_precision, by unfold binary64; decide +kernel⟩

/-- C90 fails: reading at a position that is not inside does not always throw. The position has a coordinate that is NaN. -/
theorem C90_false_access : Demo.ones.toDbl.isInsideD binary64 ⟨.nan, .fin 0⟩ = false ∧
    Demo.ones.toDbl.atPositionD binary64 "a" ⟨.nan, .fin 0⟩ = .ub ∧
    (moveD binary64 ⟨.fin 0, .pinf⟩ Demo.ones.toDbl).1 = .ub := by
  refine ⟨rfl, (C90_index_undefined _ ⟨.nan, .fin 0⟩ (.inl (by simp [Vec.IsNum, Dbl.IsNum])) "a" 0).2.1, ?_⟩
  rw [C90_move_undefined _ ⟨.fin 0, .pinf⟩ (.inl (by simp [Vec.IsNum, Dbl.IsNum]))]

/-- C90 fails: `setGeometry` and `fromMessage` succeed with a position that is not a number, and with an infinite resolution. -/
theorem C90_false_geometry : (setGeometryD binary64 ⟨.fin 3, .fin 3⟩ (.fin 1) ⟨.nan, .pinf⟩ Demo.ones.toDbl).1 = .ok () ∧
    (setGeometryD binary64 ⟨.fin 3, .fin 3⟩ .pinf ⟨.fin 0, .fin 0⟩ Demo.ones.toDbl).1 = .ok () ∧
    (fromMessageD binary64 ⟨0, 0, "f", .fin 1, .fin 3, .fin 3, ⟨.nan, .pinf⟩, [], [], [], 0, 0⟩ Demo.ones.toDbl).1 = .ok true := by
  refine ⟨by decide +kernel, by decide +kernel, by decide +kernel⟩

/-! ### Examples -/

/-- The far end of the range: the position is so far away that the distance to the map overflows. -/
example : ({ Demo.ones with position := ⟨-2 ^ 1023, 0⟩ } : CostMap ℚ).toDbl.isInsideD binary64 (Vec.toDbl ⟨2 ^ 1023, 0⟩) =
    ({ Demo.ones with position := ⟨-2 ^ 1023, 0⟩ } : CostMap ℚ).isInsideRd toDouble ⟨2 ^ 1023, 0⟩ :=
  C90_inside_same binary64_double _ (by unfold Fmt.Holds; decide +kernel) (by unfold Fmt.Holds; decide +kernel) _

theorem Demo.ones_moderate : binary64.ModerateAt Demo.ones ⟨5 / 4, 3 / 10⟩ := by
  constructor <;> (unfold Fmt.Moderate; decide +kernel)

/-- Reading in a map, with binary64. -/
example : Demo.ones.toDbl.atPositionD binary64 "a" (Vec.toDbl ⟨5 / 4, 3 / 10⟩) = .ok 9 := by
  rw [(C90_access_partial binary64_double Demo.ones_moderate (by decide +kernel) "a" 0).1]
  decide +kernel

/-- Moving a map, with binary64. -/
example : (moveD binary64 (Vec.toDbl ⟨5 / 4, 3 / 10⟩) Demo.ones.toDbl).2.position.x = .fin 1 := by
  rw [C90_move_partial binary64_double Demo.ones_moderate (by decide +kernel)]
  exact congrArg Dbl.fin (by decide +kernel)

example : (setGeometryD binary64 (Vec.toDbl ⟨5, 7 / 2⟩) (.fin (1 / 10)) (Vec.toDbl ⟨0, 10 ^ 300⟩) Demo.ones.toDbl).2.size =
    ⟨50, 35⟩ := by
  rw [C90_setGeometry_partial binary64_double Demo.ones _ (by unfold Fmt.Moderate; decide +kernel)
    (by unfold Fmt.Moderate; decide +kernel) (by unfold Fmt.Moderate; decide +kernel)]
  decide +kernel

example : (setGeometryD binary64 ⟨.pinf, .fin 1⟩ (.fin 1) (Vec.toDbl ⟨0, 0⟩) Demo.ones.toDbl).1 = .ub := by
  rw [C90_setGeometry_infinite _ _ _ _ (by decide +kernel) (by decide +kernel) (by decide +kernel) (.inl rfl)]

/-- A message that was given a NaN as position. -/
example : ∃ m', fromMessageD binary64 ⟨0, 0, "f", .fin 1, .fin 3, .fin 3, ⟨.nan, .pinf⟩, [], [], [], 0, 0⟩ Demo.ones.toDbl =
      (.ok true, m') ∧ ∀ p, m'.isInsideD binary64 p = false :=
  ⟨_, Prod.ext C90_false_geometry.2.2 rfl, fun p =>
    (C90_message_position ⟨0, 0, "f", .fin 1, .fin 3, .fin 3, ⟨.nan, .pinf⟩, [], [], [], 0, 0⟩ _ _ true
      (by simp [Vec.IsNum, Dbl.IsNum]) (Prod.ext C90_false_geometry.2.2 rfl) p "a").1⟩

end CostMapModel

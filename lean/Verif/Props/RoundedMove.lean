import Verif.Props.Rounded

/-!
# Moving the map in floating point: C75

Each move adds a rounded number of cells to the centre and rounds the sum, so the errors of many moves add up. The theorems
bound the sum.
-/

set_option linter.unusedSectionVars false

namespace CostMapModel
open CostMap
variable {K : Type} [Field K] [LinearOrder K] [IsStrictOrderedRing K] [FloorRing K]

/-- The index shift of a move, computed. -/
def shiftToRd (rd : K → K) (m : CostMap K) (p : Vec K) : Idx :=
  indexShiftRd rd ⟨rd (p.x - m.position.x), rd (p.y - m.position.y)⟩ m.resolution

/-- Effect of a rounded move. -/
theorem moveWithRd_spec {rd : K → K} {bnd : Int → Int → Int} (hb : ∀ i n, 0 < n → 0 ≤ bnd i n ∧ bnd i n < n)
    {m : CostMap K} (hc : m.Coherent) (hs : m.startIndex.In m.size) (hl : ClearableOk m) (p : Vec K) :
    ∃ m0 m' regs, moveWithRd rd bnd p m = (.ok (decide (shiftToRd rd m p ≠ 0), regs), m') ∧
      m' = { m0 with startIndex := bound2 bnd (m.startIndex + shiftToRd rd m p) m.size,
                     position := ⟨rd (m.position.x + (positionShiftRd rd (shiftToRd rd m p) m.resolution).x),
                                  rd (m.position.y + (positionShiftRd rd (shiftToRd rd m p) m.resolution).y)⟩ } ∧
      Erases m m0 (fun l i =>
        ((l ∈ m.layersToClear ∨ m.size.x ≤ |(shiftToRd rd m p).x|) ∧
          Drops bnd m.startIndex.x m.size.x (shiftToRd rd m p).x i.x) ∨
        ((l ∈ m.layersToClear ∨ m.size.y ≤ |(shiftToRd rd m p).y|) ∧
          Drops bnd m.startIndex.y m.size.y (shiftToRd rd m p).y i.y)) ∧
      ∀ i, i.In m.size → ((∃ r ∈ regs, InRegion r i) ↔
        Drops bnd m.startIndex.x m.size.x (shiftToRd rd m p).x i.x ∨
        Drops bnd m.startIndex.y m.size.y (shiftToRd rd m p).y i.y) := by
  obtain ⟨m1, m2, r1, r2, e1, e2, er, h⟩ := dropBoth_spec hb hc hs (shiftToRd rd m p) (clearable hc hl)
  have g := er.shape.geo
  refine ⟨m2, _, r1 ++ r2, ?_, rfl, er, h⟩
  unfold moveWithRd
  simp only [Act.bind]
  have e1' : dropAxis bnd (indexShiftRd rd ⟨rd (p.x - m.position.x), rd (p.y - m.position.y)⟩ m.resolution) 0 m =
    (.ok r1, m1) := e1
  have e2' : dropAxis bnd (indexShiftRd rd ⟨rd (p.x - m.position.x), rd (p.y - m.position.y)⟩ m.resolution) 1 m1 =
    (.ok r2, m2) := e2
  rw [e1']
  simp only
  rw [e2']
  simp only [g.startIndex, g.size, g.position]
  rfl

/-- What every rounded move does, apart from the costs. -/
structure MovedRd (B : K) (m m' : CostMap K) (p : Vec K) (s : Idx) : Prop where
  size : m'.size = m.size
  res : m'.resolution = m.resolution
  length : m'.length = m.length
  arena : m'.InArena B
  target_x : |m'.position.x - p.x| ≤ m.resolution / 2 + B / 2 ^ 47
  target_y : |m'.position.y - p.y| ≤ m.resolution / 2 + B / 2 ^ 47
  cells_x : |m'.position.x - (m.position.x - s.x * m.resolution)| ≤ B / 2 ^ 49
  cells_y : |m'.position.y - (m.position.y - s.y * m.resolution)| ≤ B / 2 ^ 49

theorem res_le_arena {rd : K → K} {m : CostMap K} (h : m.GeoRd rd) {B : K} (ha : m.InArena B) : m.resolution ≤ B := by
  have h1 := ha.size_x
  have h2 : (1 : K) ≤ m.size.x := by exact_mod_cast h.size_x
  have h3 := h.res_pos
  nlinarith

theorem arena_tame {rd : K → K} {m : CostMap K} (h : m.GeoRd rd) {B : K} (ha : m.InArena B) : m.Tame := by
  have h0 := h.res_pos
  have h1 := ha.cells
  have e : (2 : K) ^ 47 = 8 * 2 ^ 44 := by norm_num
  constructor
  · have := ha.pos_x; have := ha.size_x
    unfold extent
    rw [e]; nlinarith
  · have := ha.pos_y; have := ha.size_y
    unfold extent
    rw [e]; nlinarith

theorem movedRd {rd : K → K} (hrd : DoublePrecision rd) {bnd : Int → Int → Int}
    (hb : ∀ i n, 0 < n → 0 ≤ bnd i n ∧ bnd i n < n) {m m0 m' : CostMap K} (h : m.GeoRd rd) {B : K} (ha : m.InArena B)
    {p : Vec K} (hp : PointIn B p) {S : String → Idx → Prop} (he : Erases m m0 S)
    (hm : m' = { m0 with startIndex := bound2 bnd (m.startIndex + shiftToRd rd m p) m.size,
                         position := ⟨rd (m.position.x + (positionShiftRd rd (shiftToRd rd m p) m.resolution).x),
                                  rd (m.position.y + (positionShiftRd rd (shiftToRd rd m p) m.resolution).y)⟩ }) :
    m'.GeoRd rd ∧ MovedRd B m m' p (shiftToRd rd m p) := by
  have hB := res_le_arena h ha
  have g := he.shape.geo
  obtain ⟨k, k1, -, k3, k4, k5⟩ := move_axis hrd h.res_pos hB ha.cells ha.pos_x hp.1
  obtain ⟨j, j1, -, j3, j4, j5⟩ := move_axis hrd h.res_pos hB ha.cells ha.pos_y hp.2
  subst hm
  constructor
  · refine ⟨?_, ?_, ?_, ?_, ?_, ?_⟩
    · show 0 < m0.resolution; rw [g.resolution]; exact h.res_pos
    · show 0 < m0.size.x; rw [g.size]; exact h.size_x
    · show 0 < m0.size.y; rw [g.size]; exact h.size_y
    · show m0.length.x = rd (m0.size.x * m0.resolution); rw [g.size, g.length, g.resolution]; exact h.len_x
    · show m0.length.y = rd (m0.size.y * m0.resolution); rw [g.size, g.length, g.resolution]; exact h.len_y
    · show (bound2 bnd (m.startIndex + shiftToRd rd m p) m.size).In m0.size
      rw [g.size]
      have h1 := hb (m.startIndex + shiftToRd rd m p).x m.size.x h.size_x
      have h2 := hb (m.startIndex + shiftToRd rd m p).y m.size.y h.size_y
      exact ⟨h1.1, h1.2, h2.1, h2.2⟩
  · refine ⟨g.size, g.resolution, g.length, ⟨?_, ?_, ?_, k5, j5⟩, k4, j4, ?_, ?_⟩
    · show ((m0.size.x : K) + 1) * m0.resolution ≤ B; rw [g.size, g.resolution]; exact ha.size_x
    · show ((m0.size.y : K) + 1) * m0.resolution ≤ B; rw [g.size, g.resolution]; exact ha.size_y
    · show B ≤ 2 ^ 44 * m0.resolution; rw [g.resolution]; exact ha.cells
    · have e : (shiftToRd rd m p).x = -k := k1
      rw [e]
      have : m.position.x - ((-k : Int) : K) * m.resolution = m.position.x + k * m.resolution := by push_cast; ring
      rw [this]; exact k3
    · have e : (shiftToRd rd m p).y = -j := j1
      rw [e]
      have : m.position.y - ((-j : Int) : K) * m.resolution = m.position.y + j * m.resolution := by push_cast; ring
      rw [this]; exact j3

theorem getPositionRd_eq {rd : K → K} {m : CostMap K} {i : Idx} (hi : i.In m.size) :
    m.getPositionRd rd i = some
      ⟨centreRd rd (unwrapIdx i m.size m.startIndex).x m.length.x m.position.x m.resolution,
       centreRd rd (unwrapIdx i m.size m.startIndex).y m.length.y m.position.y m.resolution⟩ := by
  simp only [getPositionRd, positionFromIndexRd, inRange_iff.mpr hi, if_true]

/-- One axis of "the centre of a kept cell stays where it is". -/
theorem kept_centre {rd : K → K} (hrd : DoublePrecision rd) {n : Int} {pos pos' len r T T' B : K}
    (a : Axis rd n pos len r T) (a' : Axis rd n pos' len r T') (hT : T ≤ 3 * B) (hT' : T' ≤ 3 * B) {u s : Int}
    (hu : 0 ≤ u) (hu' : u < n) (hs : 0 ≤ u - s) (hs' : u - s < n) (hB : 0 ≤ B)
    (hp : |pos' - (pos - s * r)| ≤ B / 2 ^ 49) :
    |centreRd rd (u - s) len pos' r - centreRd rd u len pos r| ≤ B / 2 ^ 46 := by
  have h1 := a.centre_err hrd hu hu'
  have h2 := a'.centre_err hrd hs hs'
  have n46 : B / 2 ^ 46 = 128 * (B / 2 ^ 53) := by
    rw [← mul_div_assoc, div_eq_div_iff (by positivity) (by positivity)]; ring
  have n49 : B / 2 ^ 49 = 16 * (B / 2 ^ 53) := by
    rw [← mul_div_assoc, div_eq_div_iff (by positivity) (by positivity)]; ring
  have t1 : T / 2 ^ 53 ≤ 3 * (B / 2 ^ 53) := by
    rw [← mul_div_assoc]; exact div_le_div_of_nonneg_right hT (by positivity)
  have t2 : T' / 2 ^ 53 ≤ 3 * (B / 2 ^ 53) := by
    rw [← mul_div_assoc]; exact div_le_div_of_nonneg_right hT' (by positivity)
  have b0 : 0 ≤ B / 2 ^ 53 := div_nonneg hB (by positivity)
  push_cast at h2
  rw [n49] at hp
  rw [n46]
  rw [abs_le] at h1 h2 hp ⊢
  constructor <;> nlinarith

/-- One wrapping move: what it does to the cells it does not report as new. -/
theorem kept_cell {rd : K → K} (hrd : DoublePrecision rd) {m m0 m' : CostMap K} (h : m.GeoRd rd) {B : K}
    (ha : m.InArena B) {p : Vec K} (hp : PointIn B p)
    (he : Erases m m0 (fun l i =>
        ((l ∈ m.layersToClear ∨ m.size.x ≤ |(shiftToRd rd m p).x|) ∧
          Drops wrap1 m.startIndex.x m.size.x (shiftToRd rd m p).x i.x) ∨
        ((l ∈ m.layersToClear ∨ m.size.y ≤ |(shiftToRd rd m p).y|) ∧
          Drops wrap1 m.startIndex.y m.size.y (shiftToRd rd m p).y i.y)))
    (hm : m' = { m0 with startIndex := bound2 wrap1 (m.startIndex + shiftToRd rd m p) m.size,
                         position := ⟨rd (m.position.x + (positionShiftRd rd (shiftToRd rd m p) m.resolution).x),
                                  rd (m.position.y + (positionShiftRd rd (shiftToRd rd m p) m.resolution).y)⟩ })
    {i : Idx} (hi : i.In m.size) (hx : ¬ Drops wrap1 m.startIndex.x m.size.x (shiftToRd rd m p).x i.x)
    (hy : ¬ Drops wrap1 m.startIndex.y m.size.y (shiftToRd rd m p).y i.y) :
    (∀ l, m'.at l i = m.at l i) ∧
    ∃ c c', m.getPositionRd rd i = some c ∧ m'.getPositionRd rd i = some c' ∧
      |c'.x - c.x| ≤ B / 2 ^ 46 ∧ |c'.y - c.y| ≤ B / 2 ^ 46 := by
  obtain ⟨hg', hmv⟩ := movedRd hrd wrap1_ranges h ha hp he hm
  have ht := arena_tame h ha
  have ht' := arena_tame hg' hmv.arena
  have hB : 0 ≤ B := (h.res_pos.le).trans (res_le_arena h ha)
  have hi' : i.In m'.size := by rw [hmv.size]; exact hi
  constructor
  · intro l
    rw [hm, at_of_start]
    exact he.kept l i (by rintro (⟨-, d⟩ | ⟨-, d⟩); exacts [hx d, hy d])
  obtain ⟨s1, s2, s3, s4⟩ := h.start
  obtain ⟨q1, q2, q3, q4⟩ := hi
  rw [drops_wrap s1 s2 q1 q2, not_not] at hx
  rw [drops_wrap s3 s4 q3 q4, not_not] at hy
  have ur := unwrapIdx_in (i := i) ⟨q1, q2, q3, q4⟩ h.start
  have uq := unwrapIdx_eq (i := i) ⟨q1, q2, q3, q4⟩ h.start
  have hst : m'.startIndex = bound2 wrap1 (m.startIndex + shiftToRd rd m p) m.size := by rw [hm]
  -- the logical index moves by the shift
  have hu' : unwrapIdx i m'.size m'.startIndex = unwrapIdx i m.size m.startIndex - shiftToRd rd m p := by
    have key : ∀ {k n s t : Int}, 0 ≤ k → k < n → 0 ≤ s → s < n → 0 ≤ unw k n s - t → unw k n s - t < n →
        unw k n (wrap1 (s + t) n) = unw k n s - t := by
      intro k n s t k1 k2 s1 s2 d1 d2
      have hn : 0 < n := by omega
      have hr := wrap1_range (i := s + t) hn
      rw [← emod_sub_eq_unw k1 k2 hr.1 hr.2]
      have e : wrap1 (s + t) n = (s + t) % n := rfl
      rw [e, Int.sub_emod, Int.emod_emod_of_dvd _ (dvd_refl n), ← Int.sub_emod]
      have e2 := emod_sub_eq_unw k1 k2 s1 s2
      rw [← Int.emod_eq_of_lt d1 d2, ← e2, Int.sub_emod ((k - s) % n) t n, Int.emod_emod_of_dvd _ (dvd_refl n),
        ← Int.sub_emod]
      congr 1; ring
    rw [unwrapIdx_eq hi' hg'.start, uq, hmv.size, hst]
    ext
    · exact key q1 q2 s1 s2 hx.1 hx.2
    · exact key q3 q4 s3 s4 hy.1 hy.2
  have ax := axis_x h ht
  have ay := axis_y h ht
  have ax' := axis_x hg' ht'
  have ay' := axis_y hg' ht'
  rw [hmv.size, hmv.res, hmv.length] at ax' ay'
  have ar := hmv.arena
  have tx : extent m.size.x m.position.x m.resolution ≤ 3 * B := by
    have := ha.pos_x; have := ha.size_x; unfold extent; linarith
  have ty : extent m.size.y m.position.y m.resolution ≤ 3 * B := by
    have := ha.pos_y; have := ha.size_y; unfold extent; linarith
  have tx' : extent m.size.x m'.position.x m.resolution ≤ 3 * B := by
    have := ar.pos_x; have := ha.size_x; unfold extent; linarith
  have ty' : extent m.size.y m'.position.y m.resolution ≤ 3 * B := by
    have := ar.pos_y; have := ha.size_y; unfold extent; linarith
  have hux : (unwrapIdx i m.size m.startIndex).x = unw i.x m.size.x m.startIndex.x := by rw [uq]
  have huy : (unwrapIdx i m.size m.startIndex).y = unw i.y m.size.y m.startIndex.y := by rw [uq]
  rw [← hux] at hx
  rw [← huy] at hy
  refine ⟨_, _, getPositionRd_eq (show i.In m.size from ⟨q1, q2, q3, q4⟩), getPositionRd_eq hi', ?_, ?_⟩
  · rw [hu', hmv.length, hmv.res]
    exact kept_centre hrd ax ax' tx tx' ur.1 ur.2.1 hx.1 hx.2 hB hmv.cells_x
  · rw [hu', hmv.length, hmv.res]
    exact kept_centre hrd ay ay' ty ty' ur.2.2.1 ur.2.2.2 hy.1 hy.2 hB hmv.cells_y

theorem rd_nonneg {rd : K → K} (hrd : DoublePrecision rd) {x : K} (h : 0 ≤ x) : 0 ≤ rd x := by
  have h1 := hrd x
  rw [abs_of_nonneg h, abs_le] at h1
  have : x / 2 ^ 53 ≤ x := div_le_self h (by norm_num)
  linarith

/-- The layer registry stays coherent when the geometry is set in rounded arithmetic. -/
theorem setGeometryRd_coherent {rd : K → K} (hrd : DoublePrecision rd) (len : Vec K) (r : K) (p : Vec K) :
    Act.Keeps CostMap.Coherent (setGeometryRd rd len r p) := by
  intro m hc
  unfold setGeometryRd
  split
  · exact hc
  split
  · exact hc
  split
  · exact hc
  rename_i h1 h2 h3
  simp only [not_not] at h1 h2 h3
  have hx := size_nonneg_of_round (rd_nonneg hrd (div_nonneg h1.le h3.le))
  have hy := size_nonneg_of_round (rd_nonneg hrd (div_nonneg h2.le h3.le))
  refine ⟨hc.nodup, fun l => ?_, fun l a ha => ?_⟩
  · simp only [resize, clearAll, Option.map_map]
    rw [Option.isSome_map]; exact hc.mem_iff l
  · simp only [resize, clearAll, Option.map_map] at ha ⊢
    obtain ⟨b, -, rfl⟩ := Option.map_eq_some_iff.mp ha
    simp only [Function.comp, Mat.rows_setConstant, Mat.cols_setConstant, Mat.rows_const, Mat.cols_const]
    omega

/-- The state of a map that is moved around. -/
structure Movable (rd : K → K) (B : K) (m : CostMap K) : Prop where
  geo : m.GeoRd rd
  coherent : m.Coherent
  clearable : ClearableOk m
  arena : m.InArena B

theorem moved_movable {rd : K → K} {bnd : Int → Int → Int} {B : K} {m m0 m' : CostMap K} (h : Movable rd B m)
    {S : String → Idx → Prop} (he : Erases m m0 S) {s : Idx} {q : Vec K}
    (hm : m' = { m0 with startIndex := bound2 bnd s m.size, position := q }) (hg : m'.GeoRd rd) (ha : m'.InArena B) :
    Movable rd B m' := by
  refine ⟨hg, ?_, ?_, ha⟩
  · have := he.shape.coherent h.coherent
    rw [hm]; exact ⟨this.nodup, this.mem_iff, this.dims⟩
  · rw [hm]
    intro l hl
    have e : m0.basicLayers = m.basicLayers := he.shape.info.basicLayers
    have hl' : l ∈ m.basicLayers := by rw [← e]; exact hl
    have := h.clearable l hl'
    show m0.exists l = true
    rw [he.exists]; exact this

/-- C75. A sequence of moves succeeds, brings the centre to within half a cell of the last requested position, and leaves
it a whole number of cells from where it was; both up to rounding, and the second error grows by at most `B / 2^49` with
each move. This holds for every way of bounding indices, so also for the code compiled against any grid_map. -/
theorem C75_centre_drift {rd : K → K} (hrd : DoublePrecision rd) {bnd : Int → Int → Int}
    (hb : ∀ i n, 0 < n → 0 ≤ bnd i n ∧ bnd i n < n) {B : K} (ps : List (Vec K)) (hps : ∀ p ∈ ps, PointIn B p)
    {m : CostMap K} (hg : m.GeoRd rd) (hc : m.Coherent) (hl : ClearableOk m) (ha : m.InArena B) :
    ∃ m' regs, runMoves rd bnd ps m = (.ok regs, m') ∧ m'.GeoRd rd ∧ m'.InArena B ∧ m'.size = m.size ∧
      m'.resolution = m.resolution ∧
      (∃ k : Idx, |m'.position.x - (m.position.x + k.x * m.resolution)| ≤ ps.length * (B / 2 ^ 49) ∧
        |m'.position.y - (m.position.y + k.y * m.resolution)| ≤ ps.length * (B / 2 ^ 49)) ∧
      ∀ p, ps.getLast? = some p → |m'.position.x - p.x| ≤ m.resolution / 2 + B / 2 ^ 47 ∧
        |m'.position.y - p.y| ≤ m.resolution / 2 + B / 2 ^ 47 := by
  suffices H : ∀ ps : List (Vec K), (∀ p ∈ ps, PointIn B p) → ∀ m : CostMap K, Movable rd B m →
      ∃ m' regs, runMoves rd bnd ps m = (.ok regs, m') ∧ Movable rd B m' ∧ m'.size = m.size ∧
        m'.resolution = m.resolution ∧
        (∃ k : Idx, |m'.position.x - (m.position.x + k.x * m.resolution)| ≤ ps.length * (B / 2 ^ 49) ∧
          |m'.position.y - (m.position.y + k.y * m.resolution)| ≤ ps.length * (B / 2 ^ 49)) ∧
        ∀ p, ps.getLast? = some p → |m'.position.x - p.x| ≤ m.resolution / 2 + B / 2 ^ 47 ∧
          |m'.position.y - p.y| ≤ m.resolution / 2 + B / 2 ^ 47 by
    obtain ⟨m', regs, a, b, c, d, e⟩ := H ps hps m ⟨hg, hc, hl, ha⟩
    exact ⟨m', regs, a, b.geo, b.arena, c, d, e⟩
  intro ps
  induction ps with
  | nil =>
    intro _ m h
    refine ⟨m, [], rfl, h, rfl, rfl, ⟨0, ?_, ?_⟩, by simp⟩
    · simp
    · simp
  | cons p ps ih =>
    intro hps m h
    obtain ⟨m0, m1, r1, e1, hm1, her, -⟩ := moveWithRd_spec hb h.coherent h.geo.start h.clearable p (rd := rd)
    obtain ⟨hg1, mv⟩ := movedRd hrd hb h.geo h.arena (hps p (by simp)) her hm1
    have h1 := moved_movable h her hm1 hg1 mv.arena
    obtain ⟨m', r2, e2, h2, hsz, hrs, ⟨k, kx, ky⟩, hlast⟩ := ih (fun q hq => hps q (by simp [hq])) m1 h1
    refine ⟨m', r1 ++ r2, ?_, h2, hsz.trans mv.size, hrs.trans mv.res, ⟨k - shiftToRd rd m p, ?_, ?_⟩, ?_⟩
    · simp only [runMoves, Act.bind, e1, e2, Act.pure]
    · have := mv.cells_x
      rw [mv.res] at kx
      rw [List.length_cons, Idx.sub_x]
      push_cast
      rw [abs_le] at kx this ⊢
      constructor <;> linarith
    · have := mv.cells_y
      rw [mv.res] at ky
      rw [List.length_cons, Idx.sub_y]
      push_cast
      rw [abs_le] at ky this ⊢
      constructor <;> linarith
    · intro q hq
      rw [← mv.res]
      cases ps with
      | nil =>
        have e : m' = m1 := by
          have : runMoves rd bnd [] m1 = (.ok [], m1) := rfl
          rw [this] at e2
          exact (congrArg Prod.snd e2).symm
        simp at hq
        subst hq
        rw [e, mv.res]
        exact ⟨mv.target_x, mv.target_y⟩
      | cons a as => exact hlast q (by simpa using hq)

/-- C75. With moves that wrap the indices of the buffer, a cell that no move reports as new keeps its costs through the
whole sequence, and its computed centre drifts by at most `B / 2^46` per move. (False of the code where `boundIndexToRange`
clamps, see `C29_false_across_the_seam`: hence partial.) -/
theorem C75_data_drift_partial {rd : K → K} (hrd : DoublePrecision rd) {B : K} (ps : List (Vec K))
    (hps : ∀ p ∈ ps, PointIn B p) {m : CostMap K} (hg : m.GeoRd rd) (hc : m.Coherent) (hl : ClearableOk m)
    (ha : m.InArena B) :
    ∃ m' regs, runMoves rd wrap1 ps m = (.ok regs, m') ∧
      ∀ i, i.In m.size → (∀ r ∈ regs, ¬ InRegion r i) →
        (∀ l, m'.at l i = m.at l i) ∧
        ∃ c c', m.getPositionRd rd i = some c ∧ m'.getPositionRd rd i = some c' ∧
          |c'.x - c.x| ≤ ps.length * (B / 2 ^ 46) ∧ |c'.y - c.y| ≤ ps.length * (B / 2 ^ 46) := by
  suffices H : ∀ ps : List (Vec K), (∀ p ∈ ps, PointIn B p) → ∀ m : CostMap K, Movable rd B m →
      ∃ m' regs, runMoves rd wrap1 ps m = (.ok regs, m') ∧
      ∀ i, i.In m.size → (∀ r ∈ regs, ¬ InRegion r i) →
        (∀ l, m'.at l i = m.at l i) ∧
        ∃ c c', m.getPositionRd rd i = some c ∧ m'.getPositionRd rd i = some c' ∧
          |c'.x - c.x| ≤ ps.length * (B / 2 ^ 46) ∧ |c'.y - c.y| ≤ ps.length * (B / 2 ^ 46) from
    H ps hps m ⟨hg, hc, hl, ha⟩
  intro ps
  induction ps with
  | nil =>
    intro _ m h
    refine ⟨m, [], rfl, fun i hi _ => ⟨fun _ => rfl, _, _, getPositionRd_eq hi, getPositionRd_eq hi, ?_, ?_⟩⟩
    · simp
    · simp
  | cons p ps ih =>
    intro hps m h
    obtain ⟨m0, m1, r1, e1, hm1, her, hreg⟩ :=
      moveWithRd_spec wrap1_ranges h.coherent h.geo.start h.clearable p (rd := rd)
    obtain ⟨hg1, mv⟩ := movedRd hrd wrap1_ranges h.geo h.arena (hps p (by simp)) her hm1
    have h1 := moved_movable h her hm1 hg1 mv.arena
    obtain ⟨m', r2, e2, h2⟩ := ih (fun q hq => hps q (by simp [hq])) m1 h1
    refine ⟨m', r1 ++ r2, by simp only [runMoves, Act.bind, e1, e2, Act.pure], ?_⟩
    intro i hi hnew
    have nd : ¬ (Drops wrap1 m.startIndex.x m.size.x (shiftToRd rd m p).x i.x ∨
        Drops wrap1 m.startIndex.y m.size.y (shiftToRd rd m p).y i.y) := by
      rw [← hreg i hi]
      rintro ⟨r, hr, hir⟩
      exact hnew r (List.mem_append.2 (Or.inl hr)) hir
    push Not at nd
    obtain ⟨v1, c, c1, p1, p2, d1, d2⟩ := kept_cell hrd h.geo h.arena (hps p (by simp)) her hm1 hi nd.1 nd.2
    obtain ⟨v2, c1', c', p3, p4, d3, d4⟩ := h2 i (by rw [mv.size]; exact hi)
      (fun r hr => hnew r (List.mem_append.2 (Or.inr hr)))
    rw [p2] at p3
    obtain rfl : c1 = c1' := Option.some.inj p3
    refine ⟨fun l => (v2 l).trans (v1 l), c, c', p1, p4, ?_, ?_⟩
    · rw [List.length_cons]
      push_cast
      rw [abs_le] at d1 d3 ⊢
      constructor <;> linarith
    · rw [List.length_cons]
      push_cast
      rw [abs_le] at d2 d4 ⊢
      constructor <;> linarith

/-- While the start index stays in the buffer, the rounded `move` as compiled is the wrapping one. -/
theorem moveRd_eq_wrap {rd : K → K} {m : CostMap K} (hs : m.startIndex.In m.size) (hc : m.Coherent) (hl : ClearableOk m)
    {p : Vec K} (hin : (m.startIndex + shiftToRd rd m p).In m.size) : moveRd rd p m = moveWithRd rd wrap1 p m := by
  obtain ⟨m1, m2, r1, r2, e1, e2, er, -⟩ := dropBoth_spec wrap1_ranges hc hs (shiftToRd rd m p) (clearable hc hl)
  have s1 := dropAxis_shape wrap1 (shiftToRd rd m p) 0 m
  rw [e1] at s1
  have g := er.shape.geo
  have c1 : dropAxis clamp1 (shiftToRd rd m p) 0 m = (.ok r1, m1) := (dropAxis_clamp_eq_wrap hs hin 0).trans e1
  have c2 : dropAxis clamp1 (shiftToRd rd m p) 1 m1 = (.ok r2, m2) := by
    rw [dropAxis_clamp_eq_wrap (s1.start hs) (by rw [s1.geo.startIndex, s1.geo.size]; exact hin), e2]
  unfold moveRd moveWithRd
  simp only [Act.bind]
  unfold shiftToRd at e1 e2 c1 c2 hin
  rw [e1, c1]
  simp only
  rw [e2, c2]
  simp only [g.startIndex, g.size]
  rw [bound2_clamp_eq_wrap hin]

/-- No move of the sequence takes the start index out of the buffer (as compiled against grid_map_core ≥ 1.5). -/
def StaysInBuffer (rd : K → K) : List (Vec K) → CostMap K → Prop
  | [], _ => True
  | p :: ps, m => (m.startIndex + shiftToRd rd m p).In m.size ∧ StaysInBuffer rd ps (moveRd rd p m).2

/-- C75 (partial: sequences of moves that keep the start index in the buffer). The same for the code as compiled. -/
theorem C75_code_data_drift_partial {rd : K → K} (hrd : DoublePrecision rd) {B : K} (ps : List (Vec K))
    (hps : ∀ p ∈ ps, PointIn B p) {m : CostMap K} (hg : m.GeoRd rd) (hc : m.Coherent) (hl : ClearableOk m)
    (ha : m.InArena B) (hs : StaysInBuffer rd ps m) :
    ∃ m' regs, runMoves rd clamp1 ps m = (.ok regs, m') ∧
      ∀ i, i.In m.size → (∀ r ∈ regs, ¬ InRegion r i) →
        (∀ l, m'.at l i = m.at l i) ∧
        ∃ c c', m.getPositionRd rd i = some c ∧ m'.getPositionRd rd i = some c' ∧
          |c'.x - c.x| ≤ ps.length * (B / 2 ^ 46) ∧ |c'.y - c.y| ≤ ps.length * (B / 2 ^ 46) := by
  suffices H : ∀ ps : List (Vec K), (∀ p ∈ ps, PointIn B p) → ∀ m : CostMap K, Movable rd B m →
      StaysInBuffer rd ps m → runMoves rd clamp1 ps m = runMoves rd wrap1 ps m by
    rw [H ps hps m ⟨hg, hc, hl, ha⟩ hs]
    exact C75_data_drift_partial hrd ps hps hg hc hl ha
  intro ps
  induction ps with
  | nil => intro _ m _ _; rfl
  | cons p ps ih =>
    intro hps m h hs
    have e := moveRd_eq_wrap h.geo.start h.coherent h.clearable hs.1
    obtain ⟨m0, m1, r1, e1, hm1, her, -⟩ :=
      moveWithRd_spec wrap1_ranges h.coherent h.geo.start h.clearable p (rd := rd)
    obtain ⟨hg1, mv⟩ := movedRd hrd wrap1_ranges h.geo h.arena (hps p (by simp)) her hm1
    have h1 := moved_movable h her hm1 hg1 mv.arena
    have hs2 := hs.2
    rw [e, e1] at hs2
    have e' : moveWithRd rd clamp1 p m = _ := e.trans e1
    simp only [runMoves, Act.bind, e1, e', ih (fun q hq => hps q (by simp [hq])) m1 h1 hs2]

namespace Demo

theorem tenths_coherent : tenths.Coherent := by
  have h0 : (CostMap.new [] : CostMap ℚ).Coherent := CostMap.new_coherent (by simp)
  have h1 := setGeometryRd_coherent toDouble_precision ⟨toDouble (7 / 10), toDouble (7 / 10)⟩ (toDouble (1 / 10))
    ⟨toDouble (1 / 10), 0⟩ _ h0
  exact CostMap.add_coherent "a" _ _ h1

theorem tenths_arena : tenths.InArena 100 :=
  ⟨by decide +kernel, by decide +kernel, by decide +kernel, by decide +kernel, by decide +kernel⟩

end Demo

/-- A drive over a hundred metres and back: the hypotheses hold. -/
example : ∃ m' regs, runMoves toDouble clamp1 [⟨37, -12⟩, ⟨-50, 99⟩, ⟨1 / 3, 0⟩] Demo.tenths = (.ok regs, m') ∧
    |m'.position.x - 1 / 3| ≤ Demo.tenths.resolution / 2 + 100 / 2 ^ 47 := by
  obtain ⟨m', regs, e, -, -, -, -, -, h⟩ := C75_centre_drift C73_double clamp1_ranges (B := 100)
    [⟨37, -12⟩, ⟨-50, 99⟩, ⟨1 / 3, 0⟩]
    (by
      intro p hp
      simp only [List.mem_cons, List.not_mem_nil, or_false] at hp
      rcases hp with rfl | rfl | rfl <;> (constructor <;> (rw [abs_le]; constructor <;> norm_num)))
    Demo.tenths_geo Demo.tenths_coherent (by intro l hl; revert l; decide +kernel) Demo.tenths_arena
  exact ⟨m', regs, e, (h _ rfl).1⟩

example : StaysInBuffer toDouble [⟨toDouble (-1 / 10), 0⟩] Demo.tenths := ⟨by decide +kernel, trivial⟩

/-- Moving by two tenths reports two rows as new, not the others. -/
example : ((moveWithRd toDouble wrap1 ⟨toDouble (3 / 10), 0⟩ Demo.tenths).1 matches .ok (true, [⟨⟨5, 0⟩, ⟨2, 7⟩, _⟩])) =
    true := by decide +kernel

end CostMapModel

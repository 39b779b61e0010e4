import Verif.Lemmas.Access
import Verif.Props.Demo
import Mathlib.Tactic.NormNum

/-!
# Positions and indices: C10 - C14

`Geo` is the well-formedness `setGeometry` establishes (C09) and every mutator keeps.
-/

set_option linter.unusedSectionVars false

namespace CostMapModel
open CostMap
variable {K : Type} [Field K] [LinearOrder K] [IsStrictOrderedRing K] [FloorRing K]

/-- The model's unwrapping is the plain remainder. -/
theorem unwrapIdx_logical {m : CostMap K} (_ : m.Geo) {i : Idx} (hi : i.In m.size) :
    unwrapIdx i m.size m.startIndex = m.logical i := by
  unfold unwrapIdx logical
  split
  · rename_i h0
    obtain ⟨h1, h2, h3, h4⟩ := hi
    rw [h0]; ext
    · simp [Int.emod_eq_of_lt h1 h2]
    · simp [Int.emod_eq_of_lt h3 h4]
  · rfl

/-- C10. Index to position to index is the identity, for every start index. -/
theorem C10_index_position_index {m : CostMap K} (h : m.Geo) {i : Idx} (hi : i.In m.size) :
    ∃ p, m.getPosition i = some p ∧ m.isInside p = true ∧ m.getIndex p = (i, true) := by
  have hu := unwrapIdx_in hi h.start
  have hin : m.isInside (m.center (unwrapIdx i m.size m.startIndex)) = true := by
    rw [isInside_iff h, cellU_center h]; exact hu
  refine ⟨_, getPosition_eq hi, hin, ?_⟩
  rw [getIndex_eq h hin, cellU_center h, buffer_unwrap hi h.start]

/-- C10. `getPosition` fails exactly for indices out of range. -/
theorem C10_position_fails_iff (m : CostMap K) (i : Idx) : m.getPosition i = none ↔ ¬ i.In m.size := by
  constructor
  · intro h hi; rw [getPosition_eq hi] at h; cases h
  · exact getPosition_none

example : ∃ p, Demo.rotated.getPosition ⟨4, 1⟩ = some p ∧ Demo.rotated.getIndex p = (⟨4, 1⟩, true) := by
  obtain ⟨p, h, -, h'⟩ := C10_index_position_index Demo.rotated_geo (i := ⟨4, 1⟩) (by decide +kernel)
  exact ⟨p, h, h'⟩
example : Demo.rotated.getPosition ⟨0, 4⟩ = none := (C10_position_fails_iff _ _).mpr (by decide +kernel)

/-- C11. `isInside` is the half-open rectangle around the centre. -/
theorem C11_inside_iff (m : CostMap K) (p : Vec K) : m.isInside p = true ↔ m.Covers p := by
  simp only [isInside, withinMap, Bool.and_eq_true, decide_eq_true_eq, Covers]
  constructor
  · rintro ⟨⟨⟨a, b⟩, c⟩, d⟩
    refine ⟨⟨?_, ?_⟩, ?_, ?_⟩ <;> linarith
  · rintro ⟨⟨a, b⟩, c, d⟩
    refine ⟨⟨⟨?_, ?_⟩, ?_⟩, ?_⟩ <;> linarith

/-- C11. `getIndex` succeeds exactly inside the map, and then finds the cell whose square contains the
position. -/
theorem C11_containing_cell {m : CostMap K} (h : m.Geo) (p : Vec K) :
    ((m.getIndex p).2 = true ↔ m.Covers p) ∧
    (m.Covers p → (m.getIndex p).1.In m.size ∧
      ∃ c, m.getPosition (m.getIndex p).1 = some c ∧ InSquare p c m.resolution) := by
  refine ⟨by rw [getIndex_snd, C11_inside_iff], fun hp => ?_⟩
  have hp' := (C11_inside_iff m p).mpr hp
  have hin := (isInside_iff h p).mp hp'
  rw [getIndex_fst h hp']
  have hb := bufferIdx_in hin h.start
  refine ⟨hb, _, getPosition_eq hb, ?_⟩
  rw [unwrap_buffer hin h.start]
  exact (cellU_eq_iff h p _).mp rfl

theorem center_sub (m : CostMap K) (u v : Idx) :
    (m.center u).x - (m.center v).x = -(m.resolution * ((u.x - v.x : Int) : K)) ∧
    (m.center u).y - (m.center v).y = -(m.resolution * ((u.y - v.y : Int) : K)) := by
  simp only [center]; push_cast; constructor <;> ring

/-- One axis of "the containing cell is a nearest one". -/
theorem axis_nearest {p c d r : K} (hr : 0 < r) {k : Int} (hd : d - c = r * (k : K))
    (h1 : c - r / 2 < p) (h2 : p ≤ c + r / 2) : (p - c) ^ 2 ≤ (p - d) ^ 2 := by
  have hdc : d = c + r * k := by linarith
  subst hdc
  rcases lt_trichotomy k 0 with hk | hk | hk
  · have : (k : K) ≤ -1 := by exact_mod_cast (show k ≤ -1 by omega)
    nlinarith [mul_le_mul_of_nonneg_left this hr.le]
  · subst hk; simp
  · have : (1 : K) ≤ k := by exact_mod_cast hk
    nlinarith [mul_le_mul_of_nonneg_left this hr.le]

/-- C11. No other cell centre is nearer than the one `getIndex` picks. -/
theorem C11_nearest_centre {m : CostMap K} (h : m.Geo) {p : Vec K} (hp : m.Covers p) {j : Idx}
    {c d : Vec K} (hc : m.getPosition (m.getIndex p).1 = some c) (hd : m.getPosition j = some d) :
    dist2 p c ≤ dist2 p d := by
  obtain ⟨hi, c', hc', hsq⟩ := (C11_containing_cell h p).2 hp
  have hj : j.In m.size := by
    by_contra hn; rw [getPosition_none hn] at hd; cases hd
  rw [hc'] at hc; cases hc
  rw [getPosition_eq hi] at hc'; cases hc'
  rw [getPosition_eq hj] at hd; cases hd
  obtain ⟨ex, ey⟩ := center_sub m (unwrapIdx j m.size m.startIndex)
    (unwrapIdx (m.getIndex p).1 m.size m.startIndex)
  have hx := axis_nearest h.res_pos (k := -((unwrapIdx j m.size m.startIndex).x -
    (unwrapIdx (m.getIndex p).1 m.size m.startIndex).x)) (by rw [ex]; push_cast; ring) hsq.1.1 hsq.1.2
  have hy := axis_nearest h.res_pos (k := -((unwrapIdx j m.size m.startIndex).y -
    (unwrapIdx (m.getIndex p).1 m.size m.startIndex).y)) (by rw [ey]; push_cast; ring) hsq.2.1 hsq.2.2
  exact add_le_add hx hy

example : Demo.rotated.Covers ⟨1, -1⟩ := (C11_inside_iff _ _).mp (by decide +kernel)
example : ∃ c, Demo.rotated.getPosition (Demo.rotated.getIndex ⟨1, -1⟩).1 = some c ∧
    InSquare ⟨1, -1⟩ c Demo.rotated.resolution :=
  ((C11_containing_cell Demo.rotated_geo ⟨1, -1⟩).2 ((C11_inside_iff _ _).mp (by decide +kernel))).2

/-- C12. Cell centres form a regular grid: the offset between two centres is the offset of their logical
rows and columns times the resolution, with the opposite sign. -/
theorem C12_regular_grid {m : CostMap K} (h : m.Geo) {i j : Idx} {p q : Vec K}
    (hp : m.getPosition i = some p) (hq : m.getPosition j = some q) :
    p.x - q.x = m.resolution * (((m.logical j).x - (m.logical i).x : Int) : K) ∧
    p.y - q.y = m.resolution * (((m.logical j).y - (m.logical i).y : Int) : K) := by
  have hi : i.In m.size := by
    by_contra hn; rw [getPosition_none hn] at hp; cases hp
  have hj : j.In m.size := by
    by_contra hn; rw [getPosition_none hn] at hq; cases hq
  rw [getPosition_eq hi] at hp; cases hp
  rw [getPosition_eq hj] at hq; cases hq
  obtain ⟨ex, ey⟩ := center_sub m (unwrapIdx i m.size m.startIndex) (unwrapIdx j m.size m.startIndex)
  rw [ex, ey, unwrapIdx_logical h hi, unwrapIdx_logical h hj]
  constructor <;> (push_cast; ring)

/-- C12. The start index is the cell in the upper corner of the map. -/
theorem C12_upper_corner {m : CostMap K} (h : m.Geo) :
    m.logical m.startIndex = 0 ∧
    m.getPosition m.startIndex = some ⟨m.position.x + m.length.x / 2 - m.resolution / 2,
      m.position.y + m.length.y / 2 - m.resolution / 2⟩ := by
  have h0 : m.logical m.startIndex = 0 := by
    ext <;> simp [logical]
  refine ⟨h0, ?_⟩
  rw [getPosition_eq h.start, unwrapIdx_logical h h.start, h0]
  simp [center]

/-- C12. Centres of distinct cells differ by at least one resolution on some axis. -/
theorem C12_centres_apart {m : CostMap K} (h : m.Geo) {i j : Idx} {p q : Vec K} (hij : i ≠ j)
    (hp : m.getPosition i = some p) (hq : m.getPosition j = some q) :
    m.resolution ≤ |p.x - q.x| ∨ m.resolution ≤ |p.y - q.y| := by
  have hi : i.In m.size := by
    by_contra hn; rw [getPosition_none hn] at hp; cases hp
  have hj : j.In m.size := by
    by_contra hn; rw [getPosition_none hn] at hq; cases hq
  obtain ⟨ex, ey⟩ := C12_regular_grid h hp hq
  have hne : m.logical i ≠ m.logical j := by
    intro he
    apply hij
    rw [← buffer_unwrap hi h.start, ← buffer_unwrap hj h.start, unwrapIdx_logical h hi,
      unwrapIdx_logical h hj, he]
  have habs : ∀ k : Int, k ≠ 0 → m.resolution ≤ |m.resolution * (k : K)| := by
    intro k hk
    rw [abs_mul, abs_of_pos h.res_pos]
    have : (1 : K) ≤ |(k : K)| := by
      rw [← Int.cast_abs]; exact_mod_cast Int.one_le_abs hk
    nlinarith [h.res_pos]
  rw [ex, ey]
  by_cases hx : (m.logical j).x - (m.logical i).x = 0
  · right
    apply habs
    intro hy
    exact hne (Idx.ext (by omega) (by omega))
  · left; exact habs _ hx

/-- C12. Every position inside the map lies in the square of exactly one cell; positions outside lie in
none. -/
theorem C12_cells_tile {m : CostMap K} (h : m.Geo) (p : Vec K) :
    (m.Covers p ↔ ∃! i, ∃ c, m.getPosition i = some c ∧ InSquare p c m.resolution) ∧
    (m.Covers p ↔ ∃ i c, m.getPosition i = some c ∧ InSquare p c m.resolution) := by
  have uniq : ∀ i c, m.getPosition i = some c → InSquare p c m.resolution →
      m.Covers p ∧ i = (m.getIndex p).1 := by
    intro i c hc hsq
    have hi : i.In m.size := by
      by_contra hn; rw [getPosition_none hn] at hc; cases hc
    rw [getPosition_eq hi] at hc; cases hc
    have hu := (cellU_eq_iff h p (unwrapIdx i m.size m.startIndex)).mpr hsq
    have hin : m.isInside p = true := by
      rw [isInside_iff h, hu]; exact unwrapIdx_in hi h.start
    refine ⟨(C11_inside_iff m p).mp hin, ?_⟩
    rw [getIndex_fst h hin, hu, buffer_unwrap hi h.start]
  constructor
  · constructor
    · intro hp
      obtain ⟨-, c, hc⟩ := (C11_containing_cell h p).2 hp
      exact ⟨_, ⟨c, hc⟩, fun j ⟨d, hd, hsq⟩ => (uniq j d hd hsq).2⟩
    · rintro ⟨i, ⟨c, hc, hsq⟩, -⟩; exact (uniq i c hc hsq).1
  · constructor
    · intro hp
      obtain ⟨-, c, hc⟩ := (C11_containing_cell h p).2 hp
      exact ⟨_, c, hc⟩
    · rintro ⟨i, c, hc, hsq⟩; exact (uniq i c hc hsq).1

example : Demo.rotated.logical ⟨4, 1⟩ = ⟨1, 3⟩ := by decide +kernel
example : ∃! i, ∃ c, Demo.rotated.getPosition i = some c ∧ InSquare ⟨3 / 2, -3 / 2⟩ c Demo.rotated.resolution :=
  (C12_cells_tile Demo.rotated_geo _).1.mp ((C11_inside_iff _ _).mp (by decide +kernel))

/-! ## C13 -/

/-- C13. A nearest-neighbour read returns the cost of the cell whose square contains the position. -/
theorem C13_read_containing_cell {m : CostMap K} (h : m.Geo) {p : Vec K} {i : Idx} {c : Vec K}
    (hc : m.getPosition i = some c) (hsq : InSquare p c m.resolution) (l : String) :
    m.atPosition l p = m.at l i := by
  have hp := ((C12_cells_tile h p).2).mpr ⟨i, c, hc, hsq⟩
  have hi : i = (m.getIndex p).1 := by
    obtain ⟨j, -, hj⟩ := (C12_cells_tile h p).1.mp hp
    have h1 := hj i ⟨c, hc, hsq⟩
    have h2 := hj (m.getIndex p).1 ((C11_containing_cell h p).2 hp).2
    exact h1.trans h2.symm
  have h2 : (m.getIndex p).2 = true := (C11_containing_cell h p).1.mpr hp
  subst hi
  simp [atPosition, h2]

/-- C13. Reads throw `std::out_of_range` exactly outside the map or on a missing layer; they always end
in a value or that exception. -/
theorem C13_read_throws_iff {m : CostMap K} (h : m.Geo) (hm : m.Coherent) (l : String) (p : Vec K) :
    (m.atPosition l p = .thrown .outOfRange ↔ ¬ m.Covers p ∨ m.exists l = false) ∧
    (m.atPosition l p = .thrown .outOfRange ∨ ∃ c, m.atPosition l p = .ok c) := by
  by_cases hp : m.Covers p
  · have h2 : (m.getIndex p).2 = true := (C11_containing_cell h p).1.mpr hp
    have hi := ((C11_containing_cell h p).2 hp).1
    by_cases hl : m.exists l = true
    · obtain ⟨c, hc⟩ := hm.at_ok hl hi
      have : m.atPosition l p = .ok c := by simp [atPosition, h2, hc]
      rw [this]; simp [hp, hl]
    · have hl' : m.exists l = false := by simpa using hl
      have : m.atPosition l p = .thrown .outOfRange := by
        simp [atPosition, h2, at_none (exists_false_iff.mp hl')]
      rw [this]; simp [hl']
  · have h2 : (m.getIndex p).2 = false := by
      rw [Bool.eq_false_iff]; exact fun he => hp ((C11_containing_cell h p).1.mp he)
    have : m.atPosition l p = .thrown .outOfRange := by simp [atPosition, h2]
    rw [this]; simp [hp]

/-- C13. A write by position is read back everywhere in the same cell and nowhere else. -/
theorem C13_write_by_position {m : CostMap K} (h : m.Geo) (hm : m.Coherent) {l : String}
    (hl : m.exists l = true) {p : Vec K} (hp : m.Covers p) (v : Cost) :
    ∃ m', setAtPosition l p v m = (.ok (), m') ∧ m'.Geo ∧ m'.Coherent ∧ SameGeometry m m' ∧
      (∀ q, m.Covers q → m.getIndex q = m.getIndex p → m'.atPosition l q = .ok v) ∧
      (∀ l' q, ¬ (l' = l ∧ m.Covers q ∧ m.getIndex q = m.getIndex p) →
        m'.atPosition l' q = m.atPosition l' q) := by
  have h2 : (m.getIndex p).2 = true := (C11_containing_cell h p).1.mpr hp
  have hi := ((C11_containing_cell h p).2 hp).1
  obtain ⟨m', hs, hsh, hat, -⟩ := setAt_spec hm hl hi v
  have hgi : ∀ q, m'.getIndex q = m.getIndex q := by
    intro q
    simp [getIndex, hsh.geo.length, hsh.geo.position, hsh.geo.resolution, hsh.geo.size, hsh.geo.startIndex]
  refine ⟨m', by simp [setAtPosition, h2, hs], hsh.geo' h, hsh.coherent hm, hsh.geo, ?_, ?_⟩
  · intro q _ hq
    simp [atPosition, hgi, hq, h2, hat]
  · intro l' q hn
    simp only [atPosition, hgi]
    by_cases hq : (m.getIndex q).2 = true
    · simp only [hq, if_true, hat]
      rw [if_neg]
      rintro ⟨rfl, hqi⟩
      exact hn ⟨rfl, (C11_containing_cell h q).1.mp hq, Prod.ext hqi (hq.trans h2.symm)⟩
    · simp [hq]

/-- C13. A write outside the map throws and changes nothing. -/
theorem C13_write_outside {m : CostMap K} (h : m.Geo) (l : String) {p : Vec K} (hp : ¬ m.Covers p)
    (v : Cost) : setAtPosition l p v m = (.thrown .outOfRange, m) := by
  have h2 : (m.getIndex p).2 = false := by
    rw [Bool.eq_false_iff]; exact fun he => hp ((C11_containing_cell h p).1.mp he)
  simp [setAtPosition, h2]

example : Demo.rotated.atPosition "a" ⟨1, -1⟩ = .ok 0 := by decide +kernel
example : ∃ m', setAtPosition "b" ⟨1, -1⟩ 42 Demo.rotated = (.ok (), m') ∧
    m'.atPosition "b" ⟨11 / 10, -11 / 10⟩ = .ok 42 := by
  obtain ⟨m', h, -, -, -, h1, -⟩ := C13_write_by_position Demo.rotated_geo Demo.rotated_coherent (l := "b")
    (by decide +kernel) (p := ⟨1, -1⟩) ((C11_inside_iff _ _).mp (by decide +kernel)) 42
  exact ⟨m', h, h1 _ ((C11_inside_iff _ _).mp (by decide +kernel)) (by decide +kernel)⟩

/-! ## C14 -/

/-- `m'` is `m` with its circular buffer rotated: same placement and layers, another start index, and
the same cost in every logical cell. -/
structure Rotated (m m' : CostMap K) : Prop where
  geo : m'.Geo
  length : m'.length = m.length
  resolution : m'.resolution = m.resolution
  position : m'.position = m.position
  size : m'.size = m.size
  costs : ∀ l i j, i.In m.size → j.In m.size → m.logical i = m'.logical j → m'.at l j = m.at l i

/-- C14. Rotating the storage together with the start index changes no read by position. -/
theorem C14_start_index_invisible {m m' : CostMap K} (h : m.Geo) (hr : Rotated m m') (l : String) (p : Vec K) :
    m'.isInside p = m.isInside p ∧ m'.atPosition l p = m.atPosition l p := by
  have hin : m'.isInside p = m.isInside p := by simp [isInside, hr.length, hr.position]
  refine ⟨hin, ?_⟩
  by_cases hp : m.isInside p = true
  · have hp' := hin.trans hp
    have hcu : m'.cellU p = m.cellU p := by simp [cellU, hr.length, hr.position, hr.resolution]
    have hu := (isInside_iff h p).mp hp
    have hu' : (m.cellU p).In m'.size := by rw [hr.size]; exact hu
    simp only [atPosition, getIndex_eq h hp, getIndex_eq hr.geo hp', hcu, if_true]
    have hb := bufferIdx_in hu h.start
    have hb' := bufferIdx_in hu' hr.geo.start
    refine hr.costs l _ _ hb (by rw [hr.size] at hb'; rw [hr.size]; exact hb') ?_
    rw [← unwrapIdx_logical h hb, ← unwrapIdx_logical hr.geo hb', unwrap_buffer hu h.start,
      unwrap_buffer hu' hr.geo.start]
  · have hp1 : m.isInside p = false := by simpa using hp
    have hp' : m'.isInside p = false := hin.trans hp1
    simp [atPosition, getIndex_snd, hp1, hp']

/-- The rotation to start index `s`, as a construction on the whole map. -/
def rotateTo (m : CostMap K) (s : Idx) : CostMap K :=
  { m with
    startIndex := s
    data := fun l => (m.data l).map fun a => a.mapIdx fun i j c =>
      (a.get? (bufferIdx (unwrapIdx ⟨i, j⟩ m.size s) m.size m.startIndex).x
        (bufferIdx (unwrapIdx ⟨i, j⟩ m.size s) m.size m.startIndex).y).getD c }

/-- C14 is about something: every map can be rotated to every start index. -/
theorem C14_rotation_exists {m : CostMap K} (h : m.Geo) (hm : m.Coherent) {s : Idx} (hs : s.In m.size) :
    Rotated m (rotateTo m s) ∧ (rotateTo m s).startIndex = s := by
  have hg : (rotateTo m s).Geo := ⟨h.res_pos, h.size_x, h.size_y, h.len_x, h.len_y, hs⟩
  refine ⟨⟨hg, rfl, rfl, rfl, rfl, ?_⟩, rfl⟩
  intro l i j hi hj hij
  have hu : unwrapIdx j m.size s = unwrapIdx i m.size m.startIndex := by
    rw [unwrapIdx_logical h hi, hij]; exact unwrapIdx_logical hg hj
  cases hd : m.data l with
  | none => rw [at_none hd, at_none (by simp [rotateTo, hd])]
  | some a =>
    have hd' : (rotateTo m s).data l = some (a.mapIdx fun i j c =>
      (a.get? (bufferIdx (unwrapIdx ⟨i, j⟩ m.size s) m.size m.startIndex).x
        (bufferIdx (unwrapIdx ⟨i, j⟩ m.size s) m.size m.startIndex).y).getD c) := by
      simp only [rotateTo, hd, Option.map_some]
    rw [at_eq hd', at_eq hd, Mat.get?_mapIdx]
    obtain ⟨c, hc⟩ := a.exists_get? ((hm.inRange hd j).mpr hj)
    obtain ⟨c', hc'⟩ := a.exists_get? ((hm.inRange hd i).mpr hi)
    have e : (⟨j.x, j.y⟩ : Idx) = j := rfl
    rw [hc, hc', Option.map_some, e, hu, buffer_unwrap hi h.start, hc']
    rfl

example : Rotated Demo.base (rotateTo Demo.base ⟨3, 2⟩) :=
  (C14_rotation_exists Demo.base_geo Demo.base_coherent (by decide +kernel)).1
example : (rotateTo Demo.base ⟨3, 2⟩).at "a" ⟨3, 2⟩ = .ok 0 ∧ Demo.base.at "a" ⟨3, 2⟩ = .ok 32 := by
  decide +kernel

end CostMapModel

import Verif.Lemmas.Index
import Mathlib.Tactic.FieldSimp
import Mathlib.Tactic.Positivity

/-! # Positions and indices -/

set_option linter.unusedSectionVars false

namespace CostMapModel

section
variable {K : Type} [Field K] [LinearOrder K] [IsStrictOrderedRing K] [FloorRing K]

theorem truncToInt_of_nonneg {x : K} (h : 0 ≤ x) : truncToInt x = ⌊x⌋ := by simp [truncToInt, h]

theorem neg_truncToInt_of_nonpos {x : K} (h : x ≤ 0) : -truncToInt x = ⌊-x⌋ := by
  unfold truncToInt
  split
  · have : x = 0 := le_antisymm h ‹_›
    simp [this]
  · simp

end

namespace CostMap
variable {K : Type} [Field K] [LinearOrder K] [IsStrictOrderedRing K] [FloorRing K]

/-- The unwrapped index of the cell containing `p` (meaningful for `p` inside). -/
def cellU (m : CostMap K) (p : Vec K) : Idx :=
  ⟨⌊(m.position.x + m.length.x / 2 - p.x) / m.resolution⌋,
   ⌊(m.position.y + m.length.y / 2 - p.y) / m.resolution⌋⟩

/-- Centre of the cell with unwrapped index `u`. -/
def center (m : CostMap K) (u : Idx) : Vec K :=
  ⟨m.position.x + m.length.x / 2 - m.resolution / 2 - m.resolution * (u.x : K),
   m.position.y + m.length.y / 2 - m.resolution / 2 - m.resolution * (u.y : K)⟩

theorem axis_inside_iff {t r : K} {n : Int} (hr : 0 < r) :
    (0 ≤ t ∧ t < (n : K) * r) ↔ (0 ≤ ⌊t / r⌋ ∧ ⌊t / r⌋ < n) := by
  rw [Int.floor_nonneg, Int.floor_lt, div_lt_iff₀ hr]
  constructor
  · rintro ⟨a, b⟩; exact ⟨div_nonneg a hr.le, b⟩
  · rintro ⟨a, b⟩
    refine ⟨?_, b⟩
    by_contra hn
    push Not at hn
    exact absurd a (not_le.mpr (div_neg_of_neg_of_pos hn hr))

theorem isInside_iff {m : CostMap K} (h : m.Geo) (p : Vec K) :
    m.isInside p = true ↔ (m.cellU p).In m.size := by
  have hx := axis_inside_iff (t := m.position.x + m.length.x / 2 - p.x) (n := m.size.x) h.res_pos
  have hy := axis_inside_iff (t := m.position.y + m.length.y / 2 - p.y) (n := m.size.y) h.res_pos
  rw [← h.len_x] at hx
  rw [← h.len_y] at hy
  unfold Idx.In
  simp only [cellU]
  have e : (0 ≤ ⌊(m.position.x + m.length.x / 2 - p.x) / m.resolution⌋ ∧
      ⌊(m.position.x + m.length.x / 2 - p.x) / m.resolution⌋ < m.size.x ∧
      0 ≤ ⌊(m.position.y + m.length.y / 2 - p.y) / m.resolution⌋ ∧
      ⌊(m.position.y + m.length.y / 2 - p.y) / m.resolution⌋ < m.size.y) ↔
      ((0 ≤ ⌊(m.position.x + m.length.x / 2 - p.x) / m.resolution⌋ ∧
      ⌊(m.position.x + m.length.x / 2 - p.x) / m.resolution⌋ < m.size.x) ∧
      0 ≤ ⌊(m.position.y + m.length.y / 2 - p.y) / m.resolution⌋ ∧
      ⌊(m.position.y + m.length.y / 2 - p.y) / m.resolution⌋ < m.size.y) := by tauto
  rw [e, ← hx, ← hy]
  simp only [isInside, withinMap, Bool.and_eq_true, decide_eq_true_eq]
  have ex : -(p.x - m.position.x - 1 / 2 * m.length.x) = m.position.x + m.length.x / 2 - p.x := by ring
  have ey : -(p.y - m.position.y - 1 / 2 * m.length.y) = m.position.y + m.length.y / 2 - p.y := by ring
  rw [ex, ey]
  tauto

theorem getIndex_snd (m : CostMap K) (p : Vec K) : (m.getIndex p).2 = m.isInside p := rfl

/-- The index `getIndex` computes, for positions at or below the upper map border. -/
theorem getIndex_fst {m : CostMap K} (h : m.Geo) {p : Vec K} (hp : m.isInside p = true) :
    (m.getIndex p).1 = bufferIdx (m.cellU p) m.size m.startIndex := by
  have hin := (isInside_iff h p).mp hp
  obtain ⟨hx, -, hy, -⟩ := hin
  simp only [cellU] at hx hy
  rw [Int.floor_nonneg] at hx hy
  simp only [getIndex, indexFromPosition]
  have ex : (p.x - 1 / 2 * m.length.x - m.position.x) / m.resolution
      = -((m.position.x + m.length.x / 2 - p.x) / m.resolution) := by ring
  have ey : (p.y - 1 / 2 * m.length.y - m.position.y) / m.resolution
      = -((m.position.y + m.length.y / 2 - p.y) / m.resolution) := by ring
  rw [ex, ey, neg_truncToInt_of_nonpos (by linarith), neg_truncToInt_of_nonpos (by linarith),
    neg_neg, neg_neg]
  rfl

theorem getIndex_eq {m : CostMap K} (h : m.Geo) {p : Vec K} (hp : m.isInside p = true) :
    m.getIndex p = (bufferIdx (m.cellU p) m.size m.startIndex, true) := by
  rw [← getIndex_fst h hp, ← hp, ← getIndex_snd]

theorem getPosition_eq {m : CostMap K} {i : Idx} (hi : i.In m.size) :
    m.getPosition i = some (m.center (unwrapIdx i m.size m.startIndex)) := by
  simp only [getPosition, positionFromIndex, inRange_iff.mpr hi, if_true]
  congr 1
  ext
  · simp only [center]; push_cast; ring
  · simp only [center]; push_cast; ring

theorem getPosition_none {m : CostMap K} {i : Idx} (hi : ¬ i.In m.size) : m.getPosition i = none := by
  have : inRange i m.size = false := by
    rw [Bool.eq_false_iff]; exact fun h => hi (inRange_iff.mp h)
  simp [getPosition, positionFromIndex, this]

theorem cellU_center {m : CostMap K} (h : m.Geo) (u : Idx) : m.cellU (m.center u) = u := by
  have hr := h.res_pos
  have e : ∀ (c l r : K) (k : Int), 0 < r →
      ⌊(c + l / 2 - (c + l / 2 - r / 2 - r * (k : K))) / r⌋ = k := by
    intro c l r k hr
    have : (c + l / 2 - (c + l / 2 - r / 2 - r * (k : K))) / r = (k : K) + 1 / 2 := by
      field_simp; ring
    rw [this, Int.floor_eq_iff]
    constructor <;> linarith
  ext
  · exact e _ _ _ _ hr
  · exact e _ _ _ _ hr

theorem floor_div_eq_iff {t r : K} (hr : 0 < r) {k : Int} :
    ⌊t / r⌋ = k ↔ (k : K) * r ≤ t ∧ t < ((k : K) + 1) * r := by
  rw [Int.floor_eq_iff, le_div_iff₀ hr, div_lt_iff₀ hr]

/-- A position belongs to cell `u` exactly when it lies in the half-open square around its centre. -/
theorem cellU_eq_iff {m : CostMap K} (h : m.Geo) (p : Vec K) (u : Idx) :
    m.cellU p = u ↔
      ((m.center u).x - m.resolution / 2 < p.x ∧ p.x ≤ (m.center u).x + m.resolution / 2) ∧
      ((m.center u).y - m.resolution / 2 < p.y ∧ p.y ≤ (m.center u).y + m.resolution / 2) := by
  have hr := h.res_pos
  rw [Idx.ext_iff]
  simp only [cellU, center]
  rw [floor_div_eq_iff hr, floor_div_eq_iff hr]
  constructor
  · rintro ⟨⟨a, b⟩, c, d⟩
    refine ⟨⟨?_, ?_⟩, ?_, ?_⟩ <;> linarith
  · rintro ⟨⟨a, b⟩, c, d⟩
    refine ⟨⟨?_, ?_⟩, ?_, ?_⟩ <;> linarith

end CostMap
end CostMapModel

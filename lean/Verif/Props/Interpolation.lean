import Verif.Spec.Interpolation
import Verif.Lemmas.Extend
import Verif.Props.Submap
import Verif.Props.Demo
import Mathlib.Tactic.FinCases

/-! # Interpolated access: C37 -/

set_option linter.unusedSectionVars false

namespace CostMapModel
open CostMap
variable {K : Type} [Field K] [LinearOrder K] [IsStrictOrderedRing K] [FloorRing K]

theorem towards_cases (c p : K) : (towards c p = 1 ∧ c ≤ p) ∨ (towards c p = -1 ∧ p < c) := by
  unfold towards
  by_cases h : c ≤ p
  · left; simp [h]
  · right; simp [h]; exact not_le.mp h

/-- A bilinear function that takes given values at the corners of a rectangle is their blend. -/
theorem bilinear_eq {x0 x1 x2 x3 X Y ex ey px py b0 b1 b2 b3 : K} (hex : ex ≠ 0) (hey : ey ≠ 0)
    (h0 : x0 + x1 * X + x2 * Y + x3 * (X * Y) = b0)
    (h1 : x0 + x1 * (X + ex) + x2 * Y + x3 * ((X + ex) * Y) = b1)
    (h2 : x0 + x1 * X + x2 * (Y + ey) + x3 * (X * (Y + ey)) = b2)
    (h3 : x0 + x1 * (X + ex) + x2 * (Y + ey) + x3 * ((X + ex) * (Y + ey)) = b3) :
    x0 + x1 * px + x2 * py + x3 * px * py = blend ((px - X) / ex) ((py - Y) / ey) b0 b1 b2 b3 := by
  unfold blend
  rw [← h0, ← h1, ← h2, ← h3]
  field_simp
  ring

/-- The four values can be met: the system has a solution. -/
theorem bilinear_exists {X Y ex ey : K} (hex : ex ≠ 0) (hey : ey ≠ 0) (b0 b1 b2 b3 : K) :
    ∃ x0 x1 x2 x3 : K, x0 + x1 * X + x2 * Y + x3 * (X * Y) = b0 ∧
      x0 + x1 * (X + ex) + x2 * Y + x3 * ((X + ex) * Y) = b1 ∧
      x0 + x1 * X + x2 * (Y + ey) + x3 * (X * (Y + ey)) = b2 ∧
      x0 + x1 * (X + ex) + x2 * (Y + ey) + x3 * ((X + ex) * (Y + ey)) = b3 := by
  refine ⟨b0 - X * ((b1 - b0) / ex) - Y * ((b2 - b0) / ey) + X * Y * ((b3 - b1 - b2 + b0) / (ex * ey)),
    (b1 - b0) / ex - Y * ((b3 - b1 - b2 + b0) / (ex * ey)),
    (b2 - b0) / ey - X * ((b3 - b1 - b2 + b0) / (ex * ey)), (b3 - b1 - b2 + b0) / (ex * ey), ?_, ?_, ?_, ?_⟩
  all_goals (field_simp; ring)

/-- A blend with weights in [0, 1] lies between its values. -/
theorem blend_between {s t b0 b1 b2 b3 lo hi : K} (hs : 0 ≤ s) (hs' : s ≤ 1) (ht : 0 ≤ t) (ht' : t ≤ 1)
    (h0 : lo ≤ b0 ∧ b0 ≤ hi) (h1 : lo ≤ b1 ∧ b1 ≤ hi) (h2 : lo ≤ b2 ∧ b2 ≤ hi) (h3 : lo ≤ b3 ∧ b3 ≤ hi) :
    lo ≤ blend s t b0 b1 b2 b3 ∧ blend s t b0 b1 b2 b3 ≤ hi := by
  have w0 : 0 ≤ (1 - s) * (1 - t) := mul_nonneg (by linarith) (by linarith)
  have w1 : 0 ≤ s * (1 - t) := mul_nonneg hs (by linarith)
  have w2 : 0 ≤ (1 - s) * t := mul_nonneg (by linarith) ht
  have w3 : 0 ≤ s * t := mul_nonneg hs ht
  have e : (1 - s) * (1 - t) + s * (1 - t) + (1 - s) * t + s * t = 1 := by ring
  unfold blend
  constructor
  · have := mul_le_mul_of_nonneg_left h0.1 w0
    have := mul_le_mul_of_nonneg_left h1.1 w1
    have := mul_le_mul_of_nonneg_left h2.1 w2
    have := mul_le_mul_of_nonneg_left h3.1 w3
    have : lo = (1 - s) * (1 - t) * lo + s * (1 - t) * lo + (1 - s) * t * lo + s * t * lo := by ring
    linarith
  · have := mul_le_mul_of_nonneg_left h0.2 w0
    have := mul_le_mul_of_nonneg_left h1.2 w1
    have := mul_le_mul_of_nonneg_left h2.2 w2
    have := mul_le_mul_of_nonneg_left h3.2 w3
    have : hi = (1 - s) * (1 - t) * hi + s * (1 - t) * hi + (1 - s) * t * hi + s * t * hi := by ring
    linarith

/-- The truncation of a number between two costs is a cost between them. -/
theorem costOfFloat_between {v : K} {lo hi : ℕ} (hlo : (lo : K) ≤ v) (hhi : v ≤ hi) (h255 : hi ≤ 255) :
    costOfFloat v = .ok (UInt8.ofNat ⌊v⌋.toNat) ∧ (lo : Int) ≤ ⌊v⌋ ∧ ⌊v⌋ ≤ hi := by
  have h0 : (0 : K) ≤ lo := Nat.cast_nonneg lo
  have a : (lo : Int) ≤ ⌊v⌋ := by rw [Int.le_floor]; exact_mod_cast hlo
  have b : ⌊v⌋ ≤ hi := by
    have h1 := Int.floor_le v
    have : ((⌊v⌋ : Int) : K) ≤ ((hi : Int) : K) := by push_cast; linarith
    exact_mod_cast this
  unfold costOfFloat
  rw [truncToInt_of_nonneg (by linarith)]
  simp only
  rw [if_pos (by omega)]
  exact ⟨rfl, a, b⟩

theorem center_beside {m : CostMap K} (u : Idx) (dx dy : Int) :
    m.center (u + ⟨-dx, -dy⟩) = ⟨(m.center u).x + dx * m.resolution, (m.center u).y + dy * m.resolution⟩ := by
  ext
  · simp only [center, Idx.add_x]; push_cast; ring
  · simp only [center, Idx.add_y]; push_cast; ring

theorem atPosition_center {m : CostMap K} (h : m.Geo) {u : Idx} (hu : u.In m.size) (l : String) :
    m.atPosition l (m.center u) = m.at l (bufferIdx u m.size m.startIndex) := by
  have hin : m.isInside (m.center u) = true := by rw [isInside_iff h, cellU_center h]; exact hu
  rw [atPosition_inside hin, getIndex_fst h hin, cellU_center h]

theorem bufferIdx_mix {m : CostMap K} (h : m.Geo) {u v : Idx} (hu : u.In m.size) (hv : v.In m.size) :
    bufferIdx ⟨u.x, v.y⟩ m.size m.startIndex =
      ⟨(bufferIdx u m.size m.startIndex).x, (bufferIdx v m.size m.startIndex).y⟩ := by
  have huv : (⟨u.x, v.y⟩ : Idx).In m.size := ⟨hu.1, hu.2.1, hv.2.2⟩
  rw [bufferIdx_eq huv h.start, bufferIdx_eq hu h.start, bufferIdx_eq hv h.start]

/-- The solved bilinear function, evaluated at `p`, is the blend. -/
theorem solved_blend {solve : Solver K} (hsolve : SolveOk solve) {X Y ex ey : K} (hex : ex ≠ 0) (hey : ey ≠ 0)
    (p : Vec K) (b0 b1 b2 b3 : K) :
    let x := solve ![![1, X, Y, X * Y], ![1, X + ex, Y, (X + ex) * Y], ![1, X, Y + ey, X * (Y + ey)],
      ![1, X + ex, Y + ey, (X + ex) * (Y + ey)]] ![b0, b1, b2, b3]
    x 0 + x 1 * p.x + x 2 * p.y + x 3 * p.x * p.y = blend ((p.x - X) / ex) ((p.y - Y) / ey) b0 b1 b2 b3 := by
  intro x
  have hs := hsolve ![![1, X, Y, X * Y], ![1, X + ex, Y, (X + ex) * Y], ![1, X, Y + ey, X * (Y + ey)],
      ![1, X + ex, Y + ey, (X + ex) * (Y + ey)]] ![b0, b1, b2, b3] (by
    obtain ⟨x0, x1, x2, x3, f0, f1, f2, f3⟩ := bilinear_exists (X := X) (Y := Y) hex hey b0 b1 b2 b3
    refine ⟨![x0, x1, x2, x3], fun i => ?_⟩
    fin_cases i
    · show 1 * x0 + X * x1 + Y * x2 + X * Y * x3 = b0
      rw [← f0]; ring
    · show 1 * x0 + (X + ex) * x1 + Y * x2 + (X + ex) * Y * x3 = b1
      rw [← f1]; ring
    · show 1 * x0 + X * x1 + (Y + ey) * x2 + X * (Y + ey) * x3 = b2
      rw [← f2]; ring
    · show 1 * x0 + (X + ex) * x1 + (Y + ey) * x2 + (X + ex) * (Y + ey) * x3 = b3
      rw [← f3]; ring)
  have e0 : 1 * x 0 + X * x 1 + Y * x 2 + X * Y * x 3 = b0 := hs 0
  have e1 : 1 * x 0 + (X + ex) * x 1 + Y * x 2 + (X + ex) * Y * x 3 = b1 := hs 1
  have e2 : 1 * x 0 + X * x 1 + (Y + ey) * x 2 + X * (Y + ey) * x 3 = b2 := hs 2
  have e3 : 1 * x 0 + (X + ex) * x 1 + (Y + ey) * x 2 + (X + ex) * (Y + ey) * x 3 = b3 := hs 3
  refine bilinear_eq hex hey ?_ ?_ ?_ ?_
  · rw [← e0]; ring
  · rw [← e1]; ring
  · rw [← e2]; ring
  · rw [← e3]; ring

/-- C37, the true part for every map: where the two neighbouring cells towards `p` exist and are also neighbours in
the buffer, the result is the truncated blend of the costs at the four surrounding centres, weighted by the distances
in cells, and lies between their minimum and maximum. Missing: cells at the seam of a moved map's buffer, see
`C37_false` and `C37_false_neighbour_missed`, and positions outside the map, see `C37_outside_is_undefined`. -/
theorem C37_blend_partial {solve : Solver K} (hsolve : SolveOk solve) {m : CostMap K} (h : m.Geo) (hc : m.Coherent)
    {l : String} (hl : m.exists l = true) {p c : Vec K} (hp : m.Covers p)
    (hcen : m.getPosition (m.getIndex p).1 = some c)
    (hx : m.getIndex (besideX m.resolution c p) = ((m.getIndex p).1 + ⟨-towards c.x p.x, 0⟩, true))
    (hy : m.getIndex (besideY m.resolution c p) = ((m.getIndex p).1 + ⟨0, -towards c.y p.y⟩, true)) :
    ∃ b0 b1 b2 b3 : Cost, m.atPosition l c = .ok b0 ∧ m.atPosition l (besideX m.resolution c p) = .ok b1 ∧
      m.atPosition l (besideY m.resolution c p) = .ok b2 ∧ m.atPosition l (diagonal m.resolution c p) = .ok b3 ∧
      let v := blend (|p.x - c.x| / m.resolution) (|p.y - c.y| / m.resolution)
        (b0.toNat : K) b1.toNat b2.toNat b3.toNat
      m.atPositionInterp solve l p .linear = .ok (UInt8.ofNat ⌊v⌋.toNat) ∧
      ((min (min b0.toNat b1.toNat) (min b2.toNat b3.toNat) : ℕ) : Int) ≤ ⌊v⌋ ∧
      ⌊v⌋ ≤ ((max (max b0.toNat b1.toNat) (max b2.toNat b3.toNat) : ℕ) : Int) := by
  have hr := h.res_pos
  have hin : m.isInside p = true := (C11_inside_iff _ _).mpr hp
  set u := m.cellU p with hu
  have hui : u.In m.size := (isInside_iff h p).mp hin
  have hgi : (m.getIndex p).1 = bufferIdx u m.size m.startIndex := getIndex_fst h hin
  have hc0 : c = m.center u := by
    rw [hgi, getPosition_eq (bufferIdx_in hui h.start), unwrap_buffer hui h.start] at hcen
    exact (Option.some.inj hcen).symm
  set dx := towards c.x p.x with hdx
  set dy := towards c.y p.y with hdy
  have q1 : besideX m.resolution c p = m.center (u + ⟨-dx, 0⟩) := by
    have := center_beside (m := m) u dx 0
    simp only [neg_zero, Int.cast_zero, zero_mul, add_zero] at this
    rw [this, ← hc0]; rfl
  have q2 : besideY m.resolution c p = m.center (u + ⟨0, -dy⟩) := by
    have := center_beside (m := m) u 0 dy
    simp only [neg_zero, Int.cast_zero, zero_mul, add_zero] at this
    rw [this, ← hc0]; rfl
  have q3 : diagonal m.resolution c p = m.center (u + ⟨-dx, -dy⟩) := by
    rw [center_beside, ← hc0]; rfl
  have ins1 : m.isInside (m.center (u + ⟨-dx, 0⟩)) = true := by rw [← q1, ← getIndex_snd, hx]
  have ins2 : m.isInside (m.center (u + ⟨0, -dy⟩)) = true := by rw [← q2, ← getIndex_snd, hy]
  have u1 : (u + ⟨-dx, 0⟩).In m.size := by
    have := (isInside_iff h _).mp ins1; rwa [cellU_center h] at this
  have u2 : (u + ⟨0, -dy⟩).In m.size := by
    have := (isInside_iff h _).mp ins2; rwa [cellU_center h] at this
  have e3 : u + ⟨-dx, -dy⟩ = ⟨(u + ⟨-dx, 0⟩).x, (u + ⟨0, -dy⟩).y⟩ := by ext <;> simp
  have u3 : (u + ⟨-dx, -dy⟩).In m.size := by rw [e3]; exact ⟨u1.1, u1.2.1, u2.2.2⟩
  have b1i : bufferIdx (u + ⟨-dx, 0⟩) m.size m.startIndex = (m.getIndex p).1 + ⟨-dx, 0⟩ := by
    have := congrArg Prod.fst hx
    rw [q1, getIndex_fst h ins1, cellU_center h] at this
    exact this
  have b2i : bufferIdx (u + ⟨0, -dy⟩) m.size m.startIndex = (m.getIndex p).1 + ⟨0, -dy⟩ := by
    have := congrArg Prod.fst hy
    rw [q2, getIndex_fst h ins2, cellU_center h] at this
    exact this
  have b3i : bufferIdx (u + ⟨-dx, -dy⟩) m.size m.startIndex =
      ⟨((m.getIndex p).1 + ⟨-dx, 0⟩ : Idx).x, ((m.getIndex p).1 + ⟨0, -dy⟩ : Idx).y⟩ := by
    rw [e3, bufferIdx_mix h u1 u2, b1i, b2i]
  have pos : ∀ w : Idx, w.In m.size → m.getPosition (bufferIdx w m.size m.startIndex) = some (m.center w) := by
    intro w hw
    rw [getPosition_eq (bufferIdx_in hw h.start), unwrap_buffer hw h.start]
  obtain ⟨b0, hb0⟩ := hc.at_ok hl (bufferIdx_in hui h.start)
  obtain ⟨b1, hb1⟩ := hc.at_ok hl (bufferIdx_in u1 h.start)
  obtain ⟨b2, hb2⟩ := hc.at_ok hl (bufferIdx_in u2 h.start)
  obtain ⟨b3, hb3⟩ := hc.at_ok hl (bufferIdx_in u3 h.start)
  refine ⟨b0, b1, b2, b3, by rw [hc0, atPosition_center h hui, hb0], by rw [q1, atPosition_center h u1, hb1],
    by rw [q2, atPosition_center h u2, hb2], by rw [q3, atPosition_center h u3, hb3], ?_⟩
  -- weights
  have hcell := (cellU_eq_iff h p u).mp hu.symm
  rw [← hc0] at hcell
  obtain ⟨⟨cx1, cx2⟩, cy1, cy2⟩ := hcell
  have wx : (p.x - c.x) / ((dx : K) * m.resolution) = |p.x - c.x| / m.resolution := by
    rcases towards_cases c.x p.x with ⟨e, hh⟩ | ⟨e, hh⟩
    · rw [hdx, e, abs_of_nonneg (by linarith)]; simp
    · rw [hdx, e, abs_of_neg (by linarith)]; push_cast; rw [neg_one_mul, div_neg, neg_div]
  have wy : (p.y - c.y) / ((dy : K) * m.resolution) = |p.y - c.y| / m.resolution := by
    rcases towards_cases c.y p.y with ⟨e, hh⟩ | ⟨e, hh⟩
    · rw [hdy, e, abs_of_nonneg (by linarith)]; simp
    · rw [hdy, e, abs_of_neg (by linarith)]; push_cast; rw [neg_one_mul, div_neg, neg_div]
  have nex : (dx : K) * m.resolution ≠ 0 := by
    rcases towards_cases c.x p.x with ⟨e, -⟩ | ⟨e, -⟩ <;> rw [hdx, e] <;> simp [hr.ne']
  have ney : (dy : K) * m.resolution ≠ 0 := by
    rcases towards_cases c.y p.y with ⟨e, -⟩ | ⟨e, -⟩ <;> rw [hdy, e] <;> simp [hr.ne']
  have i1e : (if c.x ≤ p.x then (m.getIndex p).1 + ⟨-1, 0⟩ else (m.getIndex p).1 + ⟨1, 0⟩) =
      (m.getIndex p).1 + ⟨-dx, 0⟩ := by
    rw [hdx]; unfold towards; split <;> rfl
  have i2e : (if c.y ≤ p.y then (m.getIndex p).1 + ⟨0, -1⟩ else (m.getIndex p).1 + ⟨0, 1⟩) =
      (m.getIndex p).1 + ⟨0, -dy⟩ := by
    rw [hdy]; unfold towards; split <;> rfl
  have hval : m.linearInterpolated solve l p = .ok (some
      (blend (|p.x - c.x| / m.resolution) (|p.y - c.y| / m.resolution) (b0.toNat : K) b1.toNat b2.toNat b3.toNat)) := by
    unfold linearInterpolated
    simp only [hcen, i1e, i2e]
    rw [← b1i, ← b2i]
    have e3' : (⟨(bufferIdx (u + ⟨-dx, 0⟩) m.size m.startIndex).x,
        (bufferIdx (u + ⟨0, -dy⟩) m.size m.startIndex).y⟩ : Idx) = bufferIdx (u + ⟨-dx, -dy⟩) m.size m.startIndex := by
      rw [b1i, b2i, b3i]
    rw [pos _ u1, pos _ u2]
    simp only
    rw [e3', pos _ u3, hgi, hb0, hb1, hb2, hb3]
    simp only [Res.bind_ok]
    congr 2
    rw [← q1, ← q2, ← q3]
    rw [← wx, ← wy]
    exact solved_blend hsolve nex ney p _ _ _ _
  have ax : |p.x - c.x| / m.resolution ≤ 1 := by
    rw [div_le_one hr, abs_le]; constructor <;> linarith
  have ay : |p.y - c.y| / m.resolution ≤ 1 := by
    rw [div_le_one hr, abs_le]; constructor <;> linarith
  have both : ∀ b ∈ [b0, b1, b2, b3], ((min (min b0.toNat b1.toNat) (min b2.toNat b3.toNat) : ℕ) : K) ≤ (b.toNat : K) ∧
      (b.toNat : K) ≤ ((max (max b0.toNat b1.toNat) (max b2.toNat b3.toNat) : ℕ) : K) := by
    intro b hb
    simp only [List.mem_cons, List.not_mem_nil, or_false] at hb
    rcases hb with rfl | rfl | rfl | rfl <;> exact ⟨Nat.cast_le.mpr (by omega), Nat.cast_le.mpr (by omega)⟩
  obtain ⟨lo, hi⟩ := blend_between (div_nonneg (abs_nonneg (p.x - c.x)) hr.le) ax
    (div_nonneg (abs_nonneg (p.y - c.y)) hr.le) ay (both b0 (by simp)) (both b1 (by simp)) (both b2 (by simp))
    (both b3 (by simp))
  have h255 : max (max b0.toNat b1.toNat) (max b2.toNat b3.toNat) ≤ 255 := by
    have := b0.toNat_lt; have := b1.toNat_lt; have := b2.toNat_lt; have := b3.toNat_lt; omega
  obtain ⟨r1, r2, r3⟩ := costOfFloat_between lo hi h255
  exact ⟨by simp only [atPositionInterp, hval, Res.bind_ok]; exact r1, r2, r3⟩

/-- On an unmoved map a covered neighbour is a neighbour in the buffer. -/
theorem beside_index {m : CostMap K} (h : m.Geo) (h0 : m.startIndex = 0) {p c : Vec K} (hp : m.Covers p)
    (hcen : m.getPosition (m.getIndex p).1 = some c) :
    (m.Covers (besideX m.resolution c p) ↔ ((m.getIndex p).1 + ⟨-towards c.x p.x, 0⟩ : Idx).In m.size) ∧
    (m.Covers (besideY m.resolution c p) ↔ ((m.getIndex p).1 + ⟨0, -towards c.y p.y⟩ : Idx).In m.size) ∧
    (m.Covers (besideX m.resolution c p) →
      m.getIndex (besideX m.resolution c p) = ((m.getIndex p).1 + ⟨-towards c.x p.x, 0⟩, true)) ∧
    (m.Covers (besideY m.resolution c p) →
      m.getIndex (besideY m.resolution c p) = ((m.getIndex p).1 + ⟨0, -towards c.y p.y⟩, true)) := by
  have hin : m.isInside p = true := (C11_inside_iff _ _).mpr hp
  have hui : (m.cellU p).In m.size := (isInside_iff h p).mp hin
  have hb : ∀ u, bufferIdx u m.size m.startIndex = u := by intro u; simp [bufferIdx, h0]
  have hgi : (m.getIndex p).1 = m.cellU p := by rw [getIndex_fst h hin, hb]
  have hc0 : c = m.center (m.cellU p) := by
    have := unwrap_buffer hui h.start
    rw [hb] at this
    rw [hgi, getPosition_eq hui, this] at hcen
    exact (Option.some.inj hcen).symm
  have q1 : besideX m.resolution c p = m.center (m.cellU p + ⟨-towards c.x p.x, 0⟩) := by
    have := center_beside (m := m) (m.cellU p) (towards c.x p.x) 0
    simp only [neg_zero, Int.cast_zero, zero_mul, add_zero] at this
    rw [this, ← hc0]; rfl
  have q2 : besideY m.resolution c p = m.center (m.cellU p + ⟨0, -towards c.y p.y⟩) := by
    have := center_beside (m := m) (m.cellU p) 0 (towards c.y p.y)
    simp only [neg_zero, Int.cast_zero, zero_mul, add_zero] at this
    rw [this, ← hc0]; rfl
  have key : ∀ w, m.Covers (m.center w) ↔ w.In m.size := by
    intro w; rw [← C11_inside_iff, isInside_iff h, cellU_center h]
  have key2 : ∀ w, m.Covers (m.center w) → m.getIndex (m.center w) = (w, true) := by
    intro w hw
    have hi := (C11_inside_iff _ _).mpr hw
    refine Prod.ext ?_ (by rw [getIndex_snd]; exact hi)
    rw [getIndex_fst h hi, hb, cellU_center h]
  rw [q1, q2, hgi]
  exact ⟨key _, key _, key2 _, key2 _⟩

/-- C37 on a map that was never moved: where both neighbouring cells towards `p` are in the map. -/
theorem C37_blend_unmoved {solve : Solver K} (hsolve : SolveOk solve) {m : CostMap K} (h : m.Geo) (hc : m.Coherent)
    (h0 : m.startIndex = 0) {l : String} (hl : m.exists l = true) {p c : Vec K} (hp : m.Covers p)
    (hcen : m.getPosition (m.getIndex p).1 = some c)
    (hx : m.Covers (besideX m.resolution c p)) (hy : m.Covers (besideY m.resolution c p)) :
    ∃ b0 b1 b2 b3 : Cost, m.atPosition l c = .ok b0 ∧ m.atPosition l (besideX m.resolution c p) = .ok b1 ∧
      m.atPosition l (besideY m.resolution c p) = .ok b2 ∧ m.atPosition l (diagonal m.resolution c p) = .ok b3 ∧
      let v := blend (|p.x - c.x| / m.resolution) (|p.y - c.y| / m.resolution)
        (b0.toNat : K) b1.toNat b2.toNat b3.toNat
      m.atPositionInterp solve l p .linear = .ok (UInt8.ofNat ⌊v⌋.toNat) ∧
      ((min (min b0.toNat b1.toNat) (min b2.toNat b3.toNat) : ℕ) : Int) ≤ ⌊v⌋ ∧
      ⌊v⌋ ≤ ((max (max b0.toNat b1.toNat) (max b2.toNat b3.toNat) : ℕ) : Int) :=
  have hb := beside_index h h0 hp hcen
  C37_blend_partial hsolve h hc hl hp hcen (hb.2.2.1 hx) (hb.2.2.2 hy)

/-- C37, the fallback, on a map that was never moved: where a neighbouring cell towards `p` is not in the map the
result is the cost of the cell that contains `p`. Any solver. -/
theorem C37_fallback_unmoved (solve : Solver K) {m : CostMap K} (h : m.Geo) (h0 : m.startIndex = 0) (l : String)
    {p c : Vec K} (hp : m.Covers p) (hcen : m.getPosition (m.getIndex p).1 = some c)
    (hn : ¬ m.Covers (besideX m.resolution c p) ∨ ¬ m.Covers (besideY m.resolution c p)) :
    m.atPositionInterp solve l p .linear = m.atPosition l p := by
  obtain ⟨bx, by', -, -⟩ := beside_index h h0 hp hcen
  have i1e : (if c.x ≤ p.x then (m.getIndex p).1 + ⟨-1, 0⟩ else (m.getIndex p).1 + ⟨1, 0⟩) =
      (m.getIndex p).1 + ⟨-towards c.x p.x, 0⟩ := by
    unfold towards; split <;> rfl
  have i2e : (if c.y ≤ p.y then (m.getIndex p).1 + ⟨0, -1⟩ else (m.getIndex p).1 + ⟨0, 1⟩) =
      (m.getIndex p).1 + ⟨0, -towards c.y p.y⟩ := by
    unfold towards; split <;> rfl
  have hnone : m.linearInterpolated solve l p = .ok none := by
    unfold linearInterpolated
    simp only [hcen, i1e, i2e]
    by_cases hx : m.Covers (besideX m.resolution c p)
    · have hy : ¬ m.Covers (besideY m.resolution c p) := by
        rcases hn with hn | hn
        · exact absurd hx hn
        · exact hn
      rw [getPosition_eq (bx.mp hx), getPosition_none (fun hh => hy (by'.mpr hh))]
    · rw [getPosition_none (fun hh => hx (bx.mpr hh))]
  simp only [atPositionInterp, hnone, Res.bind_ok]

/-- C37: at the centre of a cell of an unmoved map the interpolated value is that cell's cost. -/
theorem C37_at_centre {solve : Solver K} (hsolve : SolveOk solve) {m : CostMap K} (h : m.Geo) (hc : m.Coherent)
    (h0 : m.startIndex = 0) {l : String} (hl : m.exists l = true) {i : Idx} {p : Vec K}
    (hp : m.getPosition i = some p) : m.atPositionInterp solve l p .linear = m.at l i := by
  have hi : i.In m.size := by
    by_contra hn; rw [getPosition_none hn] at hp; cases hp
  obtain ⟨p', e, hin, hg⟩ := C10_index_position_index h hi
  rw [hp] at e; cases e
  have hcov : m.Covers p := (C11_inside_iff _ _).mp hin
  have hat : m.atPosition l p = m.at l i := by rw [atPosition_inside hin, hg]
  have hcen : m.getPosition (m.getIndex p).1 = some p := by rw [hg]; exact hp
  by_cases hx : m.Covers (besideX m.resolution p p) ∧ m.Covers (besideY m.resolution p p)
  · obtain ⟨b0, b1, b2, b3, e0, -, -, -, e, -, -⟩ := C37_blend_unmoved hsolve h hc h0 hl hcov hcen hx.1 hx.2
    rw [e, ← hat, e0]
    simp [blend]
  · rw [C37_fallback_unmoved solve h h0 l hcov hcen (by tauto), hat]

/-- C37: the nearest method is `atPosition`, and any other method is refused. -/
theorem C37_other_methods (solve : Solver K) (m : CostMap K) (l : String) (p : Vec K) :
    m.atPositionInterp solve l p .nearest = m.atPosition l p ∧
    m.atPositionInterp solve l p .other = .thrown .runtimeError := ⟨rfl, rfl⟩

/-- What the code computes when the three cells it picks form a rectangle with the cell of `p`. -/
theorem linearInterpolated_rect {solve : Solver K} (hsolve : SolveOk solve) {m : CostMap K} {l : String} {p c : Vec K}
    {ex ey : K} (hex : ex ≠ 0) (hey : ey ≠ 0) {b0 b1 b2 b3 : Cost} {i0 i1 i2 i3 : Idx} (g : (m.getIndex p).1 = i0)
    (e0 : m.getPosition i0 = some c)
    (g1 : (if c.x ≤ p.x then i0 + ⟨-1, 0⟩ else i0 + ⟨1, 0⟩) = i1)
    (g2 : (if c.y ≤ p.y then i0 + ⟨0, -1⟩ else i0 + ⟨0, 1⟩) = i2) (g3 : (⟨i1.x, i2.y⟩ : Idx) = i3)
    (e1 : m.getPosition i1 = some ⟨c.x + ex, c.y⟩) (e2 : m.getPosition i2 = some ⟨c.x, c.y + ey⟩)
    (e3 : m.getPosition i3 = some ⟨c.x + ex, c.y + ey⟩)
    (a0 : m.at l i0 = .ok b0) (a1 : m.at l i1 = .ok b1) (a2 : m.at l i2 = .ok b2) (a3 : m.at l i3 = .ok b3) :
    m.linearInterpolated solve l p = .ok (some
      (blend ((p.x - c.x) / ex) ((p.y - c.y) / ey) (b0.toNat : K) b1.toNat b2.toNat b3.toNat)) := by
  unfold linearInterpolated
  simp only [g, e0, g1, g2, g3, e1, e2, e3, a0, a1, a2, a3, Res.bind_ok]
  congr 2
  exact solved_blend hsolve hex hey p _ _ _ _

/-- A solver with the assumed behaviour exists. -/
theorem solveOk_exists : ∃ solve : Solver K, SolveOk solve := by
  classical
  refine ⟨fun A b => if h : ∃ x : Fin 4 → K,
    ∀ i, A i 0 * x 0 + A i 1 * x 1 + A i 2 * x 2 + A i 3 * x 3 = b i then h.choose else 0, ?_⟩
  intro A b h
  simp only [dif_pos h]
  exact h.choose_spec

/-- A 3 x 3 map whose buffer starts in row 1, as after a move by one cell; the layer `a` holds 20, 60, 100 in the
rows seen from the upper end. -/
def Demo.seam : CostMap ℚ :=
  let m1 := (CostMap.setGeometry ⟨3, 3⟩ 1 ⟨0, 0⟩ (CostMap.new [])).2
  ((CostMap.add "a" (Mat.ofFn 3 3 fun i _ => if i = 1 then 20 else if i = 2 then 60 else 100) m1).2).setStartIndex ⟨1, 0⟩

theorem Demo.seam_geo : Demo.seam.Geo where
  res_pos := by decide +kernel
  size_x := by decide +kernel
  size_y := by decide +kernel
  len_x := by decide +kernel
  len_y := by decide +kernel
  start := by decide +kernel

theorem Demo.seam_coherent : Demo.seam.Coherent := by
  have h0 : (CostMap.new [] : CostMap ℚ).Coherent := CostMap.new_coherent (by simp)
  have h1 := CostMap.setGeometry_coherent ⟨3, 3⟩ 1 ⟨0, 0⟩ _ h0
  have h2 := CostMap.add_coherent "a" (Mat.ofFn 3 3 fun i _ => if i = 1 then 20 else if i = 2 then 60 else 100) _ h1
  exact ⟨h2.nodup, h2.mem_iff, h2.dims⟩

/-- C37 is false on a moved map: at the lower edge, where there is no neighbour and the fallback is promised, the code
extrapolates from the cell at the other end of the map. No cell holds more than 100, and the answer is 116. -/
theorem C37_false {solve : Solver ℚ} (hsolve : SolveOk solve) :
    Demo.seam.Covers ⟨-1 - 2 / 5, 0⟩ ∧ Demo.seam.atPosition "a" ⟨-1 - 2 / 5, 0⟩ = .ok 100 ∧
    ¬ Demo.seam.Covers (besideX 1 ⟨-1, 0⟩ ⟨-1 - 2 / 5, 0⟩) ∧
    (∀ i v, Demo.seam.at "a" i = .ok v → v ≤ 100) ∧
    Demo.seam.atPositionInterp solve "a" ⟨-1 - 2 / 5, 0⟩ .linear = .ok 116 := by
  refine ⟨(C11_inside_iff _ _).mp (by decide +kernel), by decide +kernel,
    fun hcv => absurd ((C11_inside_iff _ _).mpr hcv) (by decide +kernel), ?_, ?_⟩
  · intro i v hv
    by_cases hi : i.In Demo.seam.size
    · have hall : ∀ i ∈ cells Demo.seam, ∀ v, Demo.seam.at "a" i = .ok v → v ≤ 100 := by
        have : ∀ i ∈ cells Demo.seam, (match Demo.seam.at "a" i with | .ok v => decide (v ≤ 100) | _ => true) = true := by
          decide +kernel
        intro i hi v hv
        have := this i hi
        rw [hv] at this
        simpa using this
      exact hall i ((mem_cells Demo.seam_geo.start).mpr hi) v hv
    · rw [Demo.seam_coherent.at_ub (by decide +kernel) hi] at hv; cases hv
  · have e := linearInterpolated_rect hsolve (m := Demo.seam) (l := "a") (p := ⟨-1 - 2 / 5, 0⟩) (c := ⟨-1, 0⟩)
      (ex := 2) (ey := 1) (by decide +kernel) (by decide +kernel) (b0 := 100) (b1 := 20) (b2 := 100) (b3 := 20)
      (i0 := ⟨0, 1⟩) (i1 := ⟨1, 1⟩) (i2 := ⟨0, 0⟩) (i3 := ⟨1, 0⟩) (by decide +kernel) (by decide +kernel)
      (by decide +kernel) (by decide +kernel) (by decide +kernel) (by decide +kernel) (by decide +kernel)
      (by decide +kernel) (by decide +kernel) (by decide +kernel) (by decide +kernel) (by decide +kernel)
    simp only [atPositionInterp, e, Res.bind_ok]
    decide +kernel

/-- C37 is false on a moved map in the other direction too: both neighbours of the position are in the map, but at the
seam one is not found and the value is not blended: 60 instead of ⌊0.6 · 60 + 0.4 · 100⌋ = 76. Any solver. -/
theorem C37_false_neighbour_missed (solve : Solver ℚ) :
    Demo.seam.atPosition "a" ⟨-2 / 5, 0⟩ = .ok 60 ∧
    Demo.seam.Covers (besideX 1 ⟨0, 0⟩ ⟨-2 / 5, 0⟩) ∧ Demo.seam.Covers (besideY 1 ⟨0, 0⟩ ⟨-2 / 5, 0⟩) ∧
    Demo.seam.atPosition "a" (besideX 1 ⟨0, 0⟩ ⟨-2 / 5, 0⟩) = .ok 100 ∧
    Demo.seam.atPositionInterp solve "a" ⟨-2 / 5, 0⟩ .linear = .ok 60 := by
  refine ⟨by decide +kernel, (C11_inside_iff _ _).mp (by decide +kernel), (C11_inside_iff _ _).mp (by decide +kernel),
    by decide +kernel, ?_⟩
  have g : (Demo.seam.getIndex ⟨-2 / 5, 0⟩).1 = ⟨2, 1⟩ := by decide +kernel
  have e0 : Demo.seam.getPosition ⟨2, 1⟩ = some ⟨0, 0⟩ := by decide +kernel
  have e1 : Demo.seam.getPosition ⟨3, 1⟩ = none := by decide +kernel
  have hnone : Demo.seam.linearInterpolated solve "a" ⟨-2 / 5, 0⟩ = .ok none := by
    unfold linearInterpolated
    simp only [g, e0]
    rw [if_neg (by decide +kernel)]
    rw [show ((⟨2, 1⟩ : Idx) + ⟨1, 0⟩) = ⟨3, 1⟩ from rfl, e1]
  simp only [atPositionInterp, hnone, Res.bind_ok]
  decide +kernel

/-- C37 is false outside the map: instead of reporting the position as out of range the code compares with an
uninitialised position. Any solver. -/
theorem C37_outside_is_undefined (solve : Solver ℚ) :
    ¬ Demo.base.Covers ⟨10, 10⟩ ∧ Demo.base.atPosition "a" ⟨10, 10⟩ = .thrown .outOfRange ∧
    Demo.base.atPositionInterp solve "a" ⟨10, 10⟩ .linear = .ub := by
  refine ⟨fun hcv => absurd ((C11_inside_iff _ _).mpr hcv) (by decide +kernel), by decide +kernel, ?_⟩
  have e : Demo.base.getPosition (Demo.base.getIndex ⟨10, 10⟩).1 = none := by decide +kernel
  simp only [atPositionInterp, linearInterpolated, e]
  rfl

-- the hypotheses hold: a blend inside the unmoved map, across no seam of the moved one, and a fallback at the edge
example : ∃ solve : Solver ℚ, Demo.base.atPositionInterp solve "a" ⟨11 / 10, -6 / 5⟩ .linear = .ok 19 := by
  obtain ⟨solve, hs⟩ := solveOk_exists (K := ℚ)
  refine ⟨solve, ?_⟩
  obtain ⟨b0, b1, b2, b3, e0, e1, e2, e3, e, -, -⟩ := C37_blend_unmoved hs Demo.base_geo Demo.base_coherent
    Demo.base_start (l := "a") (by decide +kernel) (p := ⟨11 / 10, -6 / 5⟩) (c := ⟨1, -5 / 4⟩)
    ((C11_inside_iff _ _).mp (by decide +kernel)) (by decide +kernel)
    ((C11_inside_iff _ _).mp (by decide +kernel)) ((C11_inside_iff _ _).mp (by decide +kernel))
  rw [show Demo.base.atPosition "a" ⟨1, -5 / 4⟩ = .ok 22 by decide +kernel] at e0
  rw [show Demo.base.atPosition "a" (besideX Demo.base.resolution ⟨1, -5 / 4⟩ ⟨11 / 10, -6 / 5⟩) = .ok 12 by
    decide +kernel] at e1
  rw [show Demo.base.atPosition "a" (besideY Demo.base.resolution ⟨1, -5 / 4⟩ ⟨11 / 10, -6 / 5⟩) = .ok 21 by
    decide +kernel] at e2
  rw [show Demo.base.atPosition "a" (diagonal Demo.base.resolution ⟨1, -5 / 4⟩ ⟨11 / 10, -6 / 5⟩) = .ok 11 by
    decide +kernel] at e3
  cases e0; cases e1; cases e2; cases e3
  rw [e]; decide +kernel
example (solve : Solver ℚ) : Demo.base.atPositionInterp solve "a" ⟨21 / 10, -1⟩ .linear = .ok 2 := by
  rw [C37_fallback_unmoved solve Demo.base_geo Demo.base_start "a" (c := ⟨2, -5 / 4⟩)
    ((C11_inside_iff _ _).mp (by decide +kernel)) (by decide +kernel)
    (.inl fun hcv => absurd ((C11_inside_iff _ _).mpr hcv) (by decide +kernel))]
  decide +kernel
example : ∃ (c : Vec ℚ), Demo.rotated.getPosition (Demo.rotated.getIndex ⟨9 / 10, -3 / 10⟩).1 = some c ∧
    Demo.rotated.getIndex (besideX Demo.rotated.resolution c ⟨9 / 10, -3 / 10⟩) =
      ((Demo.rotated.getIndex ⟨9 / 10, -3 / 10⟩).1 + ⟨-towards c.x (9 / 10), 0⟩, true) ∧
    Demo.rotated.getIndex (besideY Demo.rotated.resolution c ⟨9 / 10, -3 / 10⟩) =
      ((Demo.rotated.getIndex ⟨9 / 10, -3 / 10⟩).1 + ⟨0, -towards c.y (-3 / 10)⟩, true) :=
  ⟨⟨1, -1 / 4⟩, by decide +kernel, by decide +kernel, by decide +kernel⟩

end CostMapModel

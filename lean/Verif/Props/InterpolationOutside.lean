import Verif.Props.Interpolation

/-!
# C37: linear interpolation at positions outside the map
-/

set_option linter.unusedSectionVars false

namespace CostMapModel
open CostMap
variable {K : Type} [Field K] [LinearOrder K] [IsStrictOrderedRing K] [FloorRing K]

theorem trunc_axis {v : K} {n : Int} (hn : 0 < n) : (0 ≤ -truncToInt v ∧ -truncToInt v < n) ↔ (-(n : K) < v ∧ v < 1) := by
  by_cases h : v ≤ 0
  · rw [neg_truncToInt_of_nonpos h, Int.floor_nonneg, Int.floor_lt]
    constructor
    · rintro ⟨-, h2⟩; exact ⟨by linarith, by linarith⟩
    · rintro ⟨h1, -⟩; exact ⟨by linarith, by linarith⟩
  · have h := not_le.mp h
    have hn' : (0 : K) < n := by exact_mod_cast hn
    rw [truncToInt_of_nonneg h.le]
    have h0 : 0 ≤ ⌊v⌋ := Int.floor_nonneg.mpr h.le
    constructor
    · rintro ⟨h1, -⟩
      have : ⌊v⌋ < 1 := by omega
      rw [Int.floor_lt] at this
      exact ⟨by linarith, by exact_mod_cast this⟩
    · rintro ⟨-, h2⟩
      have : ⌊v⌋ < 1 := by rw [Int.floor_lt]; exact_mod_cast h2
      omega

theorem trunc_zero {v : K} (h0 : 0 < v) (h1 : v < 1) : -truncToInt v = 0 := by
  rw [truncToInt_of_nonneg h0.le]
  have a : 0 ≤ ⌊v⌋ := Int.floor_nonneg.mpr h0.le
  have : ⌊v⌋ < 1 := by rw [Int.floor_lt]; exact_mod_cast h1
  omega

/-- C37, outside a map that was never moved. Less than one cell beyond the upper borders linear interpolation reports the position as
out of range, as reading without interpolation does. Everywhere else the outcome is undefined. Any solver. -/
theorem C37_outside_unmoved (solve : Solver K) {m : CostMap K} (h : m.Geo) (h0 : m.startIndex = 0) (l : String)
    {p : Vec K} (hp : ¬ m.Covers p) :
    ((m.position.x - m.length.x / 2 < p.x ∧ p.x < m.position.x + m.length.x / 2 + m.resolution) ∧
      (m.position.y - m.length.y / 2 < p.y ∧ p.y < m.position.y + m.length.y / 2 + m.resolution) →
        m.atPositionInterp solve l p .linear = .thrown .outOfRange) ∧
    (¬ ((m.position.x - m.length.x / 2 < p.x ∧ p.x < m.position.x + m.length.x / 2 + m.resolution) ∧
      (m.position.y - m.length.y / 2 < p.y ∧ p.y < m.position.y + m.length.y / 2 + m.resolution)) →
        m.atPositionInterp solve l p .linear = .ub) := by
  have hr := h.res_pos
  have hin : m.isInside p = false := by
    rw [Bool.eq_false_iff]; exact fun hc => hp ((C11_inside_iff _ _).mp hc)
  have hat : m.atPosition l p = .thrown .outOfRange := by
    simp only [atPosition]
    rw [getIndex_snd, hin]; rfl
  obtain ⟨vx, hvx⟩ : ∃ vx, vx = (p.x - 1 / 2 * m.length.x - m.position.x) / m.resolution := ⟨_, rfl⟩
  obtain ⟨vy, hvy⟩ : ∃ vy, vy = (p.y - 1 / 2 * m.length.y - m.position.y) / m.resolution := ⟨_, rfl⟩
  have hi0 : (m.getIndex p).1 = ⟨-truncToInt vx, -truncToInt vy⟩ := by
    rw [hvx, hvy]
    simp only [getIndex, indexFromPosition, bufferIdx, h0, if_true]
  have axis : ∀ {t c len v : K} {n : Int}, 0 < n → len = (n : K) * m.resolution → v = (t - 1 / 2 * len - c) / m.resolution →
      ((c - len / 2 < t ∧ t < c + len / 2 + m.resolution) ↔ (0 ≤ -truncToInt v ∧ -truncToInt v < n)) := by
    intro t c len v n hn hl hv
    rw [trunc_axis hn, hv, lt_div_iff₀ hr, div_lt_iff₀ hr, hl]
    constructor
    · rintro ⟨a, b⟩; exact ⟨by linarith, by linarith⟩
    · rintro ⟨a, b⟩; exact ⟨by linarith, by linarith⟩
  rw [axis h.size_x h.len_x hvx, axis h.size_y h.len_y hvy]
  have hiff : ((0 ≤ -truncToInt vx ∧ -truncToInt vx < m.size.x) ∧ (0 ≤ -truncToInt vy ∧ -truncToInt vy < m.size.y)) ↔
      (m.getIndex p).1.In m.size := by
    rw [hi0]
    exact ⟨fun ⟨⟨a, b⟩, c, d⟩ => ⟨a, b, c, d⟩, fun ⟨a, b, c, d⟩ => ⟨⟨a, b⟩, c, d⟩⟩
  rw [hiff]
  refine ⟨fun hI => ?_, fun hI => ?_⟩
  · have hunw : ∀ i : Idx, unwrapIdx i m.size m.startIndex = i := fun i => by simp only [unwrapIdx, h0, if_true]
    have hpos := getPosition_eq hI
    rw [hunw] at hpos
    have hnone : m.linearInterpolated solve l p = .ok none := by
      unfold linearInterpolated
      simp only [hpos]
      -- beyond one of the upper borders
      have hup : 0 < vx ∨ 0 < vy := by
        by_contra hn
        push Not at hn
        have hI' := hiff.mpr hI
        rw [trunc_axis h.size_x, trunc_axis h.size_y] at hI'
        obtain ⟨⟨a, -⟩, b, -⟩ := hI'
        obtain ⟨c, d⟩ := hn
        rw [hvx, lt_div_iff₀ hr] at a
        rw [hvy, lt_div_iff₀ hr] at b
        rw [hvx, div_le_iff₀ hr] at c
        rw [hvy, div_le_iff₀ hr] at d
        have lx := h.len_x
        have ly := h.len_y
        exact hp ⟨⟨by linarith, by linarith⟩, by linarith, by linarith⟩
      have hI' := hiff.mpr hI
      rw [trunc_axis h.size_x, trunc_axis h.size_y] at hI'
      rcases hup with hu | hu
      · have hz := trunc_zero hu hI'.1.2
        have hle : (m.center (m.getIndex p).1).x ≤ p.x := by
          rw [hi0, hz]
          rw [hvx, lt_div_iff₀ hr] at hu
          simp only [center]; push_cast; linarith
        rw [if_pos hle, getPosition_none (i := (m.getIndex p).1 + ⟨-1, 0⟩)]
        rw [hi0, hz]
        rintro ⟨a, -⟩
        simp at a
      · have hz := trunc_zero hu hI'.2.2
        have hle : (m.center (m.getIndex p).1).y ≤ p.y := by
          rw [hi0, hz]
          rw [hvy, lt_div_iff₀ hr] at hu
          simp only [center]; push_cast; linarith
        rw [if_pos hle, getPosition_none (i := (m.getIndex p).1 + ⟨0, -1⟩)]
        · split <;> rfl
        · rw [hi0, hz]
          rintro ⟨-, -, a, -⟩
          simp at a
    simp only [atPositionInterp, hnone, Res.bind_ok, hat]
  · simp only [atPositionInterp, linearInterpolated, getPosition_none hI]
    rfl

/-- C37 is false outside a moved map in another way: the index of the position wraps around into the buffer, and the costs of two cells of the
map are extrapolated to the position. A cost that the map does not hold comes back, and further away the conversion of
the extrapolated value to a cost is undefined. -/
theorem C37_false_extrapolates {solve : Solver ℚ} (hsolve : SolveOk solve) :
    ¬ Demo.seam.Covers ⟨-4 - 2 / 5, 0⟩ ∧ Demo.seam.atPosition "a" ⟨-4 - 2 / 5, 0⟩ = .thrown .outOfRange ∧
    Demo.seam.atPositionInterp solve "a" ⟨-4 - 2 / 5, 0⟩ .linear = .ok 236 ∧
    (∀ i, Demo.seam.at "a" i ≠ .ok 236) ∧
    Demo.seam.atPositionInterp solve "a" ⟨-7 - 2 / 5, 0⟩ .linear = .ub := by
  refine ⟨fun hcv => absurd ((C11_inside_iff _ _).mpr hcv) (by decide +kernel), by decide +kernel, ?_, ?_, ?_⟩
  · have e := linearInterpolated_rect hsolve (m := Demo.seam) (l := "a") (p := ⟨-4 - 2 / 5, 0⟩) (c := ⟨-1, 0⟩)
      (ex := 2) (ey := 1) (by decide +kernel) (by decide +kernel) (b0 := 100) (b1 := 20) (b2 := 100) (b3 := 20)
      (i0 := ⟨0, 1⟩) (i1 := ⟨1, 1⟩) (i2 := ⟨0, 0⟩) (i3 := ⟨1, 0⟩) (by decide +kernel) (by decide +kernel)
      (by decide +kernel) (by decide +kernel) (by decide +kernel) (by decide +kernel) (by decide +kernel)
      (by decide +kernel) (by decide +kernel) (by decide +kernel) (by decide +kernel) (by decide +kernel)
    simp only [atPositionInterp, e, Res.bind_ok]
    decide +kernel
  · intro i
    by_cases hi : i.In Demo.seam.size
    · have hall : ∀ i ∈ cells Demo.seam, Demo.seam.at "a" i ≠ .ok 236 := by decide +kernel
      exact hall i ((mem_cells Demo.seam_geo.start).mpr hi)
    · rw [Demo.seam_coherent.at_ub (by decide +kernel) hi]; intro hc; cases hc
  · have e := linearInterpolated_rect hsolve (m := Demo.seam) (l := "a") (p := ⟨-7 - 2 / 5, 0⟩) (c := ⟨-1, 0⟩)
      (ex := 2) (ey := 1) (by decide +kernel) (by decide +kernel) (b0 := 100) (b1 := 20) (b2 := 100) (b3 := 20)
      (i0 := ⟨0, 1⟩) (i1 := ⟨1, 1⟩) (i2 := ⟨0, 0⟩) (i3 := ⟨1, 0⟩) (by decide +kernel) (by decide +kernel)
      (by decide +kernel) (by decide +kernel) (by decide +kernel) (by decide +kernel) (by decide +kernel)
      (by decide +kernel) (by decide +kernel) (by decide +kernel) (by decide +kernel) (by decide +kernel)
    simp only [atPositionInterp, e, Res.bind_ok]
    decide +kernel

-- the hypotheses hold: a position just beyond the upper x border of the unmoved map, and one beyond the lower one
example (solve : Solver ℚ) : Demo.base.atPositionInterp solve "a" ⟨Demo.base.position.x + Demo.base.length.x / 2 + 1 / 10, -1⟩ .linear =
    .thrown .outOfRange :=
  (C37_outside_unmoved solve Demo.base_geo Demo.base_start "a"
    (fun hcv => absurd ((C11_inside_iff _ _).mpr hcv) (by decide +kernel))).1 (by decide +kernel)

example (solve : Solver ℚ) : Demo.base.atPositionInterp solve "a" ⟨Demo.base.position.x - Demo.base.length.x / 2, -1⟩ .linear = .ub :=
  (C37_outside_unmoved solve Demo.base_geo Demo.base_start "a"
    (fun hcv => absurd ((C11_inside_iff _ _).mpr hcv) (by decide +kernel))).2 (by decide +kernel)

example : ∃ solve : Solver ℚ, SolveOk solve := solveOk_exists

end CostMapModel

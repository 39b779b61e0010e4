import Verif.Model.MachineCostmap2D
import Verif.Lemmas.RoundedCostmap2D
import Verif.Props.Machine

/-! # ROS costmaps on the machine: when no conversion overflows -/

set_option linter.unusedSectionVars false

namespace CostMapModel
open CostMap
variable {K : Type} [Field K] [LinearOrder K] [IsStrictOrderedRing K] [FloorRing K]

theorem ofReal_near {x : K} (h : |x| ≤ 2 ^ 30) : I32.ofReal x = some (truncToInt x) := by
  obtain ⟨h1, h2⟩ := abs_le.mp h
  unfold I32.ofReal truncToInt
  split
  · rename_i h0
    apply i32_eq
    · have : 0 ≤ ⌊x⌋ := Int.floor_nonneg.2 h0
      omega
    · rw [Int.floor_lt]; push_cast; linarith
  · rename_i h0
    push Not at h0
    have a : 0 ≤ ⌊-x⌋ := Int.floor_nonneg.2 (by linarith)
    have b : ⌊-x⌋ ≤ 2 ^ 30 := by
      rw [Int.floor_le_iff]; push_cast; linarith
    apply i32_eq <;> omega

theorem DoublePrecision.le {rd : K → K} (h : DoublePrecision rd) (x : K) : |rd x| ≤ 5 / 4 * |x| := by
  have e := h x
  have := abs_nonneg x
  have e2 : |x| / 2 ^ 53 ≤ |x| / 4 := div_le_div_of_nonneg_left this (by norm_num) (by norm_num)
  have := abs_sub_abs_le_abs_sub (rd x) x
  linarith

/-- A quotient that is converted. -/
theorem ofReal_quotient {rd : K → K} (hrd : DoublePrecision rd) {d r : K} (hr : 0 < r) (h : |d| ≤ 2 ^ 29 * r) :
    I32.ofReal (rd (d / r)) = some (truncToInt (rd (d / r))) := by
  apply ofReal_near
  have e := hrd.le (d / r)
  have : |d / r| ≤ 2 ^ 29 := by rw [abs_div, abs_of_pos hr, div_le_iff₀ hr]; exact h
  linarith

theorem windowCentreI_eq {rd : K → K} (hrd : DoublePrecision rd) {len p o r : K} (hr : 0 < r) (h : |len| ≤ 2 ^ 29 * r) :
    windowCentreI rd len p o r = some (windowCentreRd rd len p o r) := by
  unfold windowCentreI windowCentreRd
  rw [ofReal_quotient hrd hr h]
  rfl

theorem worldToMapI_eq {rd : K → K} (hrd : DoublePrecision rd) {c : Costmap2D K} (hr : 0 < c.resolution) {p : Vec K}
    (hx : |p.x - c.origin.x| ≤ 2 ^ 28 * c.resolution) (hy : |p.y - c.origin.y| ≤ 2 ^ 28 * c.resolution) :
    c.worldToMapI rd p = some (c.worldToMapRd rd p) := by
  unfold Costmap2D.worldToMapI Costmap2D.worldToMapRd
  split
  · rfl
  rename_i hn
  push Not at hn
  have key : ∀ {d : K}, |d| ≤ 2 ^ 28 * c.resolution → |rd d| ≤ 2 ^ 29 * c.resolution := by
    intro d h
    have := hrd.le d
    have := mul_pos (show (0 : K) < 2 ^ 28 by positivity) hr
    linarith
  have pos : ∀ {d : K}, 0 ≤ d → 0 ≤ truncToInt (rd (rd d / c.resolution)) := by
    intro d h
    have h' := hrd.nonneg (div_nonneg (hrd.nonneg h) hr.le)
    unfold truncToInt
    rw [if_pos h']
    exact Int.floor_nonneg.2 h'
  have px := pos (sub_nonneg.2 hn.1)
  have py := pos (sub_nonneg.2 hn.2)
  rw [ofReal_quotient hrd hr (key hx), ofReal_quotient hrd hr (key hy)]
  dsimp only [Option.bind_some]
  by_cases h : (truncToInt (rd (rd (p.x - c.origin.x) / c.resolution))).toNat < c.sizeX ∧
    (truncToInt (rd (rd (p.y - c.origin.y) / c.resolution))).toNat < c.sizeY
  · rw [if_pos h, if_pos ⟨⟨px, by omega⟩, ⟨py, by omega⟩⟩]
  · rw [if_neg h, if_neg (by omega)]

theorem windowI_eq {rd : K → K} {c : Costmap2D K} {q size : Vec K} (h0 : c.worldToMapI rd q = some (c.worldToMapRd rd q))
    (h1 : c.worldToMapI rd ⟨rd (q.x + size.x), rd (q.y + size.y)⟩ = some (c.worldToMapRd rd ⟨rd (q.x + size.x), rd (q.y + size.y)⟩)) :
    c.windowI rd q size = c.windowRd rd q size := by
  unfold Costmap2D.windowI Costmap2D.windowRd
  rw [h0, h1]
  dsimp only [Res.ofOption, Res.bind_ok]
  cases c.worldToMapRd rd q with
  | none => rfl
  | some a =>
    obtain ⟨x0, y0⟩ := a
    cases c.worldToMapRd rd ⟨rd (q.x + size.x), rd (q.y + size.y)⟩ <;> rfl

/-- What a geometry leaves behind, when it is taken. -/
theorem setGeometryRd_fields {rd : K → K} {len : Vec K} {r : K} {p : Vec K} {m m1 : CostMap K}
    (h : setGeometryRd rd len r p m = (.ok (), m1)) : 0 < len.x ∧ 0 < len.y ∧ m1.position = p ∧ m1.resolution = r ∧
      m1.length = ⟨rd ((roundHalfAway (rd (len.x / r)) : K) * r), rd ((roundHalfAway (rd (len.y / r)) : K) * r)⟩ := by
  unfold setGeometryRd at h
  split at h
  · cases h
  split at h
  · cases h
  split at h
  · cases h
  rename_i h1 h2 h3
  rw [not_not] at h1 h2 h3
  cases h
  exact ⟨h1, h2, rfl, rfl, rfl⟩

/-- The length of a geometry on one axis. -/
theorem stored_length {rd : K → K} (hrd : DoublePrecision rd) {l r : K} (hr : 0 < r) (h0 : 0 < l) (h : l ≤ 2 ^ 26 * r) :
    |rd ((roundHalfAway (rd (l / r)) : K) * r)| ≤ 2 ^ 27 * r := by
  have q0 : 0 < l / r := div_pos h0 hr
  have q1 : l / r ≤ 2 ^ 26 := by rw [div_le_iff₀ hr]; exact h
  have e := hrd.le (l / r)
  have n0 := hrd.nonneg q0.le
  rw [abs_of_nonneg n0, abs_of_pos q0] at e
  have r0 : (0 : K) ≤ roundHalfAway (rd (l / r)) := by
    unfold roundHalfAway
    rw [if_pos n0]
    exact_mod_cast Int.floor_nonneg.2 (by linarith)
  have r1 : (roundHalfAway (rd (l / r)) : K) ≤ 2 ^ 26 * (5 / 4) + 1 / 2 := by
    have : (roundHalfAway (rd (l / r)) : K) ≤ rd (l / r) + 1 / 2 := by
      unfold roundHalfAway
      rw [if_pos n0]
      exact Int.floor_le _
    linarith
  have e2 := hrd.le ((roundHalfAway (rd (l / r)) : K) * r)
  rw [abs_of_nonneg (mul_nonneg r0 hr.le)] at e2
  have := mul_le_mul_of_nonneg_right r1 hr.le
  linarith

/-- The corners of the window are near the costmap's origin. -/
theorem window_corner {rd : K → K} (hrd : DoublePrecision rd) {len p o r L : K} (hr : 0 < r) (ho : |o| ≤ 2 ^ 44 * r)
    (hp : |p - o| ≤ 2 ^ 26 * r) (hL : |L| ≤ 2 ^ 27 * r) :
    |rd (windowCentreRd rd len p o r - rd (L / 2)) - o| ≤ 2 ^ 28 * r ∧
      |rd (rd (windowCentreRd rd len p o r - rd (L / 2)) + L) - o| ≤ 2 ^ 28 * r := by
  generalize hcw : windowCentreRd rd len p o r = w
  have near := windowCentreRd_near hrd (len := len) (p := p) (o := o) hr
  rw [hcw] at near
  have pb : |p| ≤ |o| + 2 ^ 26 * r := by
    have := abs_sub_abs_le_abs_sub p o
    linarith
  have n1 : |w - p| ≤ 2 * r := by
    have : (|p| + |o| + r) / 2 ^ 48 ≤ r := by
      rw [div_le_iff₀ (by positivity)]
      linarith
    linarith
  have e1 := hrd (L / 2)
  have eL : |L / 2| ≤ 2 ^ 26 * r := by rw [abs_div, abs_of_pos (show (0 : K) < 2 by norm_num)]; linarith
  have e1' : |rd (L / 2)| ≤ (2 ^ 26 + 1) * r := by
    have := abs_sub_abs_le_abs_sub (rd (L / 2)) (L / 2)
    have : |L / 2| / 2 ^ 53 ≤ r := by rw [div_le_iff₀ (by positivity)]; linarith
    linarith
  obtain ⟨n2, n3⟩ := abs_le.mp n1
  obtain ⟨p2, p3⟩ := abs_le.mp hp
  obtain ⟨o2, o3⟩ := abs_le.mp ho
  obtain ⟨l2, l3⟩ := abs_le.mp e1'
  obtain ⟨L2, L3⟩ := abs_le.mp hL
  have s1 : |w - rd (L / 2)| ≤ 2 ^ 45 * r := abs_le.mpr ⟨by linarith, by linarith⟩
  have f1 : |rd (w - rd (L / 2)) - (w - rd (L / 2))| ≤ r :=
    (hrd _).trans (by rw [div_le_iff₀ (by positivity)]; linarith)
  obtain ⟨f2, f3⟩ := abs_le.mp f1
  have s2 : |rd (w - rd (L / 2)) + L| ≤ 2 ^ 46 * r := by
    have := abs_le.mp s1
    exact abs_le.mpr ⟨by linarith, by linarith⟩
  have g1 : |rd (rd (w - rd (L / 2)) + L) - (rd (w - rd (L / 2)) + L)| ≤ r :=
    (hrd _).trans (by rw [div_le_iff₀ (by positivity)]; linarith)
  obtain ⟨g2, g3⟩ := abs_le.mp g1
  -- the upper corner: half a length above the centre, up to the rounding of the half
  have h1 : |rd (L / 2) - L / 2| ≤ r := e1.trans (by rw [div_le_iff₀ (by positivity)]; linarith)
  obtain ⟨h2, h3⟩ := abs_le.mp h1
  exact ⟨abs_le.mpr ⟨by linarith, by linarith⟩, abs_le.mpr ⟨by linarith, by linarith⟩⟩

end CostMapModel

import Verif.Props.Iterators
import Mathlib.Analysis.SpecialFunctions.Trigonometric.Basic
import Mathlib.Algebra.Order.Archimedean.Real.Basic
import Mathlib.Analysis.Real.Sqrt

/-!
# C18 over the real numbers
-/

namespace CostMapModel
open CostMap

/-- C18 over the reals with the real cosine, sine and square root (partial as `C18_ellipse_partial`),
for a map whose buffer was never rotated. -/
theorem C18_ellipse_real_partial {m : CostMap ℝ} (h : m.Geo) (h0 : m.startIndex = 0) (center len : Vec ℝ)
    (θ : ℝ) (hlx : len.x ≠ 0) (hly : len.y ≠ 0)
    (htl : EpsOk m ⟨center.x + (ellipseHalf Real.sqrt len (Real.cos θ) (Real.sin θ)).x,
      center.y + (ellipseHalf Real.sqrt len (Real.cos θ) (Real.sin θ)).y⟩)
    (hbr : EpsOk m ⟨center.x - (ellipseHalf Real.sqrt len (Real.cos θ) (Real.sin θ)).x,
      center.y - (ellipseHalf Real.sqrt len (Real.cos θ) (Real.sin θ)).y⟩) :
    ∃ it xs, ellipseIter Real.sqrt m center len (Real.cos θ) (Real.sin θ) = .ok it ∧
      Visits ShapeIter.ops it xs ∧
      Enumerates xs (fun i => ∃ p, m.getPosition i = some p ∧
        InEllipse center len (Real.cos θ) (Real.sin θ) p) := by
  have hn : ∀ x, 0 ≤ Real.sqrt x := Real.sqrt_nonneg
  refine C18_ellipse_partial h center ⟨Real.sqrt_nonneg _, Real.sq_sqrt (by positivity)⟩
    ⟨Real.sqrt_nonneg _, Real.sq_sqrt (by positivity)⟩ (by linarith [Real.sin_sq_add_cos_sq θ]) hlx hly htl hbr
    (seamFree_of_unmoved h h0 htl hbr ?_ ?_)
  · simp only [ellipseHalf]; linarith [hn ((Real.cos θ * len.x) ^ 2 + (-Real.sin θ * len.y) ^ 2)]
  · simp only [ellipseHalf]; linarith [hn ((Real.sin θ * len.x) ^ 2 + (Real.cos θ * len.y) ^ 2)]

/-- A real 5 x 4 map. -/
noncomputable def realDemo : CostMap ℝ :=
  { (CostMap.new [] : CostMap ℝ) with length := ⟨5, 4⟩, resolution := 1, size := ⟨5, 4⟩ }

theorem realDemo_geo : realDemo.Geo := by
  constructor <;> simp [realDemo, CostMap.new, Idx.In]

theorem realDemo_half (θ : ℝ) : (ellipseHalf Real.sqrt ⟨2, 1⟩ (Real.cos θ) (Real.sin θ)).x ≤ 2 ∧
    (ellipseHalf Real.sqrt ⟨2, 1⟩ (Real.cos θ) (Real.sin θ)).y ≤ 2 := by
  have h := Real.sin_sq_add_cos_sq θ
  constructor <;> simp only [ellipseHalf] <;> rw [Real.sqrt_le_left (by norm_num)] <;>
    nlinarith [sq_nonneg (Real.sin θ), sq_nonneg (Real.cos θ)]

theorem realDemo_eps {x y : ℝ} (hx : |x| ≤ 2) (hy : |y| ≤ 2) : EpsOk realDemo ⟨x, y⟩ := by
  have e : (dblEpsilon : ℝ) = 1 / 4503599627370496 := rfl
  have hr : realDemo.resolution = 1 := rfl
  constructor <;> rw [e, hr] <;> simp only
  · have : max 1 |x| ≤ 2 := max_le (by norm_num) hx
    nlinarith
  · have : max 1 |y| ≤ 2 := max_le (by norm_num) hy
    nlinarith

/-- Every angle meets the hypotheses of `C18_ellipse_real_partial` on this map. -/
example (θ : ℝ) : ∃ it xs, ellipseIter Real.sqrt realDemo ⟨0, 0⟩ ⟨2, 1⟩ (Real.cos θ) (Real.sin θ) = .ok it ∧
    Visits ShapeIter.ops it xs ∧ (⟨2, 1⟩ : Idx) ∈ xs := by
  obtain ⟨a, b⟩ := realDemo_half θ
  have hx : 0 ≤ (ellipseHalf Real.sqrt ⟨2, 1⟩ (Real.cos θ) (Real.sin θ)).x := Real.sqrt_nonneg _
  have hy : 0 ≤ (ellipseHalf Real.sqrt ⟨2, 1⟩ (Real.cos θ) (Real.sin θ)).y := Real.sqrt_nonneg _
  obtain ⟨it, xs, h1, h2, h3⟩ := C18_ellipse_real_partial realDemo_geo rfl ⟨0, 0⟩ ⟨2, 1⟩ θ (by norm_num)
    (by norm_num) (realDemo_eps (by rw [abs_le]; constructor <;> linarith) (by rw [abs_le]; constructor <;> linarith))
    (realDemo_eps (by rw [abs_le]; constructor <;> linarith) (by rw [abs_le]; constructor <;> linarith))
  refine ⟨it, xs, h1, h2, (h3.2 _).mpr ⟨⟨0, 1 / 2⟩, ?_, 1 / 2 * Real.sin θ, 1 / 2 * Real.cos θ, ?_, ?_, ?_⟩⟩
  · rw [getPosition_eq (by simp [realDemo, Idx.In])]
    simp [realDemo, center, CostMap.new, unwrapIdx]
    norm_num
  · ring
  · linear_combination (-1 / 2 : ℝ) * Real.sin_sq_add_cos_sq θ
  · have := Real.sin_sq_add_cos_sq θ
    nlinarith [sq_nonneg (Real.sin θ)]

end CostMapModel

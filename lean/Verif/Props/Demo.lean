import Verif.Lemmas.Store
import Mathlib.Data.Rat.Floor

/-! # Concrete maps used as witnesses

Built only with the modelled API, over the rationals. -/

namespace CostMapModel
namespace Demo

/-- A 5 x 4 map with resolution 1/2, layers `a` and `b`; `a` is the basic layer. Cell `(i, j)` of `a`
holds `10 * i + j`, `b` is unknown except for one cell. -/
def base : CostMap ℚ :=
  let m0 : CostMap ℚ := CostMap.new []
  let m1 := (CostMap.setGeometry ⟨5 / 2, 2⟩ (1 / 2) ⟨1, -1⟩ m0).2
  let m2 := (CostMap.add "a" (Mat.ofFn 5 4 fun i j => UInt8.ofNat (10 * i.toNat + j.toNat)) m1).2
  let m3 := (CostMap.addConst "b" NO_INFORMATION m2).2
  (CostMap.setAt "b" ⟨2, 1⟩ 7 m3).2.setBasicLayers ["a"]

/-- The same map with its buffer start index moved to `(3, 2)`. -/
def rotated : CostMap ℚ := base.setStartIndex ⟨3, 2⟩

theorem base_size : base.size = ⟨5, 4⟩ := by decide +kernel
theorem base_res : base.resolution = 1 / 2 := by decide +kernel
theorem base_len : base.length = ⟨5 / 2, 2⟩ := by decide +kernel
theorem base_start : base.startIndex = 0 := by decide +kernel
theorem base_layers : base.layers = ["a", "b"] := by decide +kernel

theorem base_geo : base.Geo where
  res_pos := by decide +kernel
  size_x := by decide +kernel
  size_y := by decide +kernel
  len_x := by decide +kernel
  len_y := by decide +kernel
  start := by decide +kernel

theorem rotated_geo : rotated.Geo where
  res_pos := by decide +kernel
  size_x := by decide +kernel
  size_y := by decide +kernel
  len_x := by decide +kernel
  len_y := by decide +kernel
  start := by decide +kernel

theorem base_coherent : base.Coherent := by
  have h0 : (CostMap.new [] : CostMap ℚ).Coherent := CostMap.new_coherent (by simp)
  have h1 := CostMap.setGeometry_coherent ⟨5 / 2, 2⟩ (1 / 2) ⟨1, -1⟩ _ h0
  have h2 := CostMap.add_coherent "a" (Mat.ofFn 5 4 fun i j => UInt8.ofNat (10 * i.toNat + j.toNat)) _ h1
  have h3 := CostMap.addConst_coherent "b" NO_INFORMATION _ h2
  have h4 := (CostMap.setAt_shape "b" ⟨2, 1⟩ 7 _).coherent h3
  exact ⟨h4.nodup, h4.mem_iff, h4.dims⟩

theorem rotated_coherent : rotated.Coherent :=
  ⟨base_coherent.nodup, base_coherent.mem_iff, base_coherent.dims⟩

end Demo
end CostMapModel

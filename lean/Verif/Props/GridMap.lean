import Verif.Lemmas.Occupancy
import Verif.Props.Geometry

/-!
# C53: conversion to a grid map
-/

set_option linter.unusedSectionVars false

namespace CostMapModel
open CostMap
variable {K : Type} [Field K] [LinearOrder K] [IsStrictOrderedRing K] [FloorRing K]

/-- A grid map without layers. -/
def GridMap.Empty (g : GridMap K) : Prop := g.layers = [] ∧ ∀ l, g.data l = none

/-- The matrix `toGridMap` adds for a layer. -/
def gridMat (a : Mat Cost) : Mat (Option ℚ) := a.mapIdx fun _ _ c => some (gridValue c)

/-- The loop over the layers. -/
theorem gridLayers_run {m : CostMap K} (hc : m.Coherent) : ∀ {ls : List String} {g : GridMap K}, g.size = m.size →
    ls.Nodup → (∀ l ∈ ls, l ∈ m.layers ∧ g.data l = none) →
    ∃ g', Act.forEach (gridLayer m) ls g = (.ok (), g') ∧ g'.layers = g.layers ++ ls ∧
      (∀ l, g'.data l = if l ∈ ls then (m.data l).map gridMat else g.data l) ∧ g'.frameId = g.frameId ∧
      g'.timestamp = g.timestamp ∧ g'.length = g.length ∧ g'.resolution = g.resolution ∧ g'.position = g.position ∧
      g'.size = g.size ∧ g'.startIndex = g.startIndex
  | [], g, _, _, _ => ⟨g, rfl, by simp, by simp, rfl, rfl, rfl, rfl, rfl, rfl, rfl⟩
  | l :: ls, g, hs, hn, hl => by
    obtain ⟨h1, h2⟩ := hl l (by simp)
    obtain ⟨a, ha⟩ := Option.isSome_iff_exists.1 ((hc.mem_iff l).1 h1)
    have hd := hc.dims l a ha
    have hget : m.get l = .ok a := by simp [CostMap.get, ha]
    have e : gridLayer m l g = (.ok (), { g with data := fun l' => if l' = l then some (gridMat a) else g.data l',
                                                 layers := g.layers ++ [l] }) := by
      unfold gridLayer
      rw [hget, Act.bind_ok (show Act.lift (Res.ok a) g = (.ok a, g) from rfl), GridMap.add]
      have r : ((a.mapIdx fun _ _ c => some (gridValue c)).rows : Int) = g.size.x := by
        rw [hs, ← hd.1]; rfl
      have c : ((a.mapIdx fun _ _ c => some (gridValue c)).cols : Int) = g.size.y := by
        rw [hs, ← hd.2]; rfl
      rw [if_neg (by rw [r]; simp), if_neg (by rw [c]; simp), h2]
      rfl
    rw [List.nodup_cons] at hn
    obtain ⟨g', g1, g2, g3, g4⟩ := gridLayers_run hc (ls := ls)
      (g := { g with data := fun l' => if l' = l then some (gridMat a) else g.data l', layers := g.layers ++ [l] }) hs hn.2
      (fun l' hl' => by
        have := hl l' (by simp [hl'])
        refine ⟨this.1, ?_⟩
        simp only
        rw [if_neg (fun h : l' = l => hn.1 (h ▸ hl'))]
        exact this.2)
    refine ⟨g', ?_, by rw [g2]; simp, ?_, g4⟩
    · unfold Act.forEach
      rw [Act.bind_ok e, g1]
    · intro l'
      rw [g3 l']
      by_cases h : l' ∈ ls
      · rw [if_pos h, if_pos (by simp [h])]
      · rw [if_neg h]
        by_cases h' : l' = l
        · subst h'
          simp [ha]
        · simp [h, h']

/-- The run of `toGridMap` into an empty grid map. -/
theorem toGridMap_run {m : CostMap K} (hg : m.Geo) (hc : m.Coherent) {g : GridMap K} (he : g.Empty) :
    ∃ g', toGridMap m g = (.ok (), g') ∧ g'.frameId = m.frameId ∧ g'.timestamp = m.timestamp ∧ g'.length = m.length ∧
      g'.resolution = m.resolution ∧ g'.position = m.position ∧ g'.size = m.size ∧ g'.startIndex = 0 ∧
      g'.layers = m.layers ∧ ∀ l, g'.data l = (m.data l).map gridMat := by
  have hx1 : m.length.x / m.resolution = m.size.x := by
    rw [hg.len_x]; exact mul_div_cancel_right₀ _ hg.res_pos.ne'
  have hy1 : m.length.y / m.resolution = m.size.y := by
    rw [hg.len_y]; exact mul_div_cancel_right₀ _ hg.res_pos.ne'
  have px : (0 : K) < m.size.x := by exact_mod_cast hg.size_x
  have py : (0 : K) < m.size.y := by exact_mod_cast hg.size_y
  have lx : 0 < m.length.x := by rw [hg.len_x]; exact mul_pos px hg.res_pos
  have ly : 0 < m.length.y := by rw [hg.len_y]; exact mul_pos py hg.res_pos
  have e1 : GridMap.setGeometry m.length m.resolution m.position g =
      (.ok (), { g with size := m.size, data := fun _ => none, resolution := m.resolution, length := m.length,
                        position := m.position, startIndex := 0 }) := by
    unfold GridMap.setGeometry
    rw [if_neg (not_not.2 lx), if_neg (not_not.2 ly), if_neg (not_not.2 hg.res_pos)]
    simp only [hx1, hy1, roundHalfAway_intCast _ hg.size_x.le, roundHalfAway_intCast _ hg.size_y.le, he.2, ← hg.len_x,
      ← hg.len_y]
    rfl
  obtain ⟨g', g1, g2, g3, g4, g5, g6, g7, g8, g9, g10⟩ := gridLayers_run hc (ls := m.layers)
    (g := { g with size := m.size, data := fun _ => none, resolution := m.resolution, length := m.length,
                   position := m.position, startIndex := 0, frameId := m.frameId, timestamp := m.timestamp })
    rfl hc.nodup (fun l hl => ⟨hl, rfl⟩)
  refine ⟨g', ?_, g4, g5, g6, g7, g8, g9, g10, by rw [g2, he.1]; rfl, fun l => ?_⟩
  · unfold toGridMap
    rw [Act.bind_ok e1, ← g1]
    rfl
  · rw [g3 l]
    by_cases h : l ∈ m.layers
    · rw [if_pos h]
    · rw [if_neg h]
      have : m.data l = none := by
        cases hx : m.data l with
        | none => rfl
        | some a => exact absurd ((hc.mem_iff l).2 (by simp [hx])) h
      rw [this]; rfl

theorem gridMat_get? (a : Mat Cost) {i : Idx} {c : Cost} (h : a.get? i.x i.y = some c) :
    (gridMat a).get? i.x i.y = some (some (gridValue c)) := by
  simp only [gridMat, Mat.get?_mapIdx, h, Option.map_some]

/-- The values: within 1/200000 of 100 * cost / 255, exact at both ends, strictly increasing. -/
theorem gridValue_spec : (∀ c : Cost, |gridValue c - 100 * (c.toNat : ℚ) / 255| ≤ 1 / 200000) ∧ gridValue 0 = 0 ∧
    gridValue 255 = 100 ∧ ∀ c c' : Cost, c < c' → gridValue c < gridValue c' := by
  have step : ∀ n, n < 255 → gridValue (UInt8.ofNat n) < gridValue (UInt8.ofNat (n + 1)) := by decide +kernel
  refine ⟨forall_cost (by decide +kernel), by decide +kernel, by decide +kernel, ?_⟩
  have main : ∀ n k, n + k + 1 < 256 → gridValue (UInt8.ofNat n) < gridValue (UInt8.ofNat (n + k + 1)) := by
    intro n k
    induction k with
    | zero => intro h; exact step n (by omega)
    | succ k ih => intro h; exact (ih (by omega)).trans (step (n + k + 1) (by omega))
  intro c c' h
  have h := UInt8.lt_iff_toNat_lt.1 h
  have h' := c'.toNat_lt
  have := main c.toNat (c'.toNat - c.toNat - 1) (by omega)
  rwa [show c.toNat + (c'.toNat - c.toNat - 1) + 1 = c'.toNat by omega, UInt8.ofNat_toNat, UInt8.ofNat_toNat] at this

/-- C53, for maps whose buffer starts at index zero. The values are 100 * cost / 255 up to `float` rounding: within
1/200000, exact for 0 and 255, and strictly increasing with the cost. The full statement includes moved maps; see
`C53_false`. -/
theorem C53_to_grid_map_partial : ∃ f : Cost → ℚ, (∀ c, |f c - 100 * (c.toNat : ℚ) / 255| ≤ 1 / 200000) ∧ f 0 = 0 ∧
    f 255 = 100 ∧ (∀ c c', c < c' → f c < f c') ∧
    ∀ (m : CostMap K), m.Geo → m.Coherent → m.startIndex = 0 → ∀ g : GridMap K, g.Empty →
      ∃ g', toGridMap m g = (.ok (), g') ∧ g'.frameId = m.frameId ∧ g'.timestamp = m.timestamp ∧ g'.length = m.length ∧
        g'.resolution = m.resolution ∧ g'.position = m.position ∧ g'.size = m.size ∧ g'.layers = m.layers ∧
        ∀ l p, m.exists l = true → m.Covers p →
          ∃ c, m.atPosition l p = .ok c ∧ g'.atPosition l p = .ok (some (f c)) := by
  obtain ⟨v1, v2, v3, v4⟩ := gridValue_spec
  refine ⟨gridValue, v1, v2, v3, v4, fun m hg hc hs g he => ?_⟩
  obtain ⟨g', g0, g1, g2, g3, g4, g5, g6, g7, g8, g9⟩ := toGridMap_run hg hc he
  refine ⟨g', g0, g1, g2, g3, g4, g5, g6, g8, fun l p hl hp => ?_⟩
  have hins := (C11_inside_iff m p).2 hp
  have hin := getIndex_in hg hins
  obtain ⟨c, hcc⟩ := hc.at_ok hl hin
  refine ⟨c, by rw [atPosition_inside hins]; exact hcc, ?_⟩
  obtain ⟨a, ha⟩ := Option.isSome_iff_exists.1 (show (m.data l).isSome from hl)
  have hget : a.get? (m.getIndex p).1.x (m.getIndex p).1.y = some c := by
    have := hcc
    simp only [CostMap.at, ha] at this
    cases h : a.get? (m.getIndex p).1.x (m.getIndex p).1.y with
    | none => rw [h] at this; cases this
    | some c' => rw [h] at this; cases this; rfl
  have hidx : indexFromPosition p g'.length g'.position g'.resolution g'.size g'.startIndex = ((m.getIndex p).1, true) := by
    rw [g3, g5, g4, g6, g7, ← hs]
    exact Prod.ext rfl (by rw [← hins]; rfl)
  unfold GridMap.atPosition
  rw [hidx, g9 l, ha]
  simp only [Option.map_some, if_true]
  rw [gridMat_get? a hget]
  rfl

/-- C53. The start index is not passed on: whatever it is, the grid map starts at index zero and its matrices hold the
elements of the buffer in their storage places. -/
theorem C53_start_index_is_ignored {m : CostMap K} (hg : m.Geo) (hc : m.Coherent) {g : GridMap K} (he : g.Empty) :
    ∃ g', toGridMap m g = (.ok (), g') ∧ g'.startIndex = 0 ∧ g'.layers = m.layers ∧
      ∀ l i c, m.at l i = .ok c → ∃ a, g'.data l = some a ∧ a.get? i.x i.y = some (some (gridValue c)) := by
  obtain ⟨g', g0, g1, g2, g3, g4, g5, g6, g7, g8, g9⟩ := toGridMap_run hg hc he
  refine ⟨g', g0, g7, g8, fun l i c h => ?_⟩
  simp only [CostMap.at] at h
  cases hd : m.data l with
  | none => rw [hd] at h; cases h
  | some a =>
    simp only [hd] at h
    refine ⟨gridMat a, by rw [g9, hd]; rfl, ?_⟩
    apply gridMat_get?
    cases hx : a.get? i.x i.y with
    | none => rw [hx] at h; cases h
    | some c' => rw [hx] at h; cases h; rfl

/-- C53 is false for moved maps: in the corner of `Demo.rotated` the grid map shows the value of another cell. -/
theorem C53_false : ¬ ∀ (m : CostMap ℚ), m.Geo → m.Coherent → ∃ g', toGridMap m GridMap.new = (.ok (), g') ∧
    ∀ l p c, m.atPosition l p = .ok c → g'.atPosition l p = .ok (some (gridValue c)) := by
  intro h
  obtain ⟨g', h1, h2⟩ := h Demo.rotated Demo.rotated_geo Demo.rotated_coherent
  have e : g' = (toGridMap Demo.rotated GridMap.new).2 := by rw [h1]
  have := h2 "a" ⟨2, -1 / 4⟩ 32 (by decide +kernel)
  rw [e] at this
  revert this
  decide +kernel

theorem gridMap_new_empty : (GridMap.new : GridMap K).Empty := ⟨rfl, fun _ => rfl⟩

example : ∃ g', toGridMap Demo.base GridMap.new = (.ok (), g') ∧ g'.layers = ["a", "b"] := by
  obtain ⟨f, -, -, -, -, h⟩ := C53_to_grid_map_partial (K := ℚ)
  obtain ⟨g', h1, -, -, -, -, -, -, h2, -⟩ := h _ Demo.base_geo Demo.base_coherent Demo.base_start _ gridMap_new_empty
  exact ⟨g', h1, h2.trans Demo.base_layers⟩
example : ((toGridMap Demo.base GridMap.new).2.atPosition "b" ⟨1, -3 / 4⟩) = .ok (some (gridValue 7)) := by decide +kernel

end CostMapModel

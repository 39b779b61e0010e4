import Verif.Spec.Occupancy
import Verif.Lemmas.Message

/-!
# Lemmas on occupancy grids
-/

set_option linter.unusedSectionVars false

namespace CostMapModel
variable {K : Type} [Field K] [LinearOrder K] [IsStrictOrderedRing K] [FloorRing K]

/-- A statement about all costs that can be computed holds if it holds for the numbers below 256. -/
theorem forall_cost {P : Cost → Prop} (h : ∀ n, n < 256 → P (UInt8.ofNat n)) (c : Cost) : P c := by
  have := h c.toNat c.toNat_lt
  rwa [UInt8.ofNat_toNat] at this

theorem occupancyFloat_eq (c : Cost) : toInt8 (occupancyFloat c) = .ok (occupancyOf c) :=
  forall_cost (P := fun c => toInt8 (occupancyFloat c) = .ok (occupancyOf c)) (by decide +kernel) c

/-- A loop that writes different elements of a vector. -/
theorem forEach_setElem {body : Idx → Act (List Int) Unit} {k v : Idx → Int} :
    ∀ {xs : List Idx} {d : List Int}, (∀ i ∈ xs, ∀ s : List Int, body i s = setElem (k i) (v i) s) →
    (∀ i ∈ xs, 0 ≤ k i ∧ k i < d.length) → (xs.map k).Nodup →
    ∃ d', Act.forEach body xs d = (.ok (), d') ∧ d'.length = d.length ∧
      (∀ i ∈ xs, d'[(k i).toNat]? = some (v i)) ∧ ∀ n : Nat, (∀ i ∈ xs, k i ≠ n) → d'[n]? = d[n]?
  | [], d, _, _, _ => ⟨d, rfl, rfl, by simp, fun _ _ => rfl⟩
  | i :: xs, d, hb, hk, hn => by
    have hi := hk i (by simp)
    have e : body i d = (.ok (), d.set (k i).toNat (v i)) := by
      rw [hb i (by simp), setElem, if_pos hi]
    rw [List.map_cons, List.nodup_cons] at hn
    obtain ⟨d', h1, h2, h3, h4⟩ := forEach_setElem (xs := xs) (d := d.set (k i).toNat (v i))
      (fun j hj => hb j (by simp [hj])) (fun j hj => by rw [List.length_set]; exact hk j (by simp [hj])) hn.2
    refine ⟨d', ?_, by rw [h2, List.length_set], ?_, ?_⟩
    · unfold Act.forEach
      rw [Act.bind_ok e, h1]
    · intro j hj
      rcases List.mem_cons.1 hj with rfl | hj
      · rw [h4 (k j).toNat, List.getElem?_set_self (by omega)]
        intro q hq heq
        exact hn.1 (List.mem_map.2 ⟨q, hq, by omega⟩)
      · exact h3 j hj
    · intro n hne
      rw [h4 n fun j hj => hne j (by simp [hj]), List.getElem?_set_ne]
      have := hne i (by simp)
      omega

theorem resized_length (d : List Int) (n : Nat) : (resized d n).length = n := by
  simp only [resized, List.length_append, List.length_take, List.length_replicate]
  omega

/-- The element a cell is written to, in terms of rows and columns counted from the other corner. -/
theorem occupancyIndex (size i : Idx) :
    size.x * size.y - linearIdx i size - 1 = (size.y - 1 - i.y) * size.x + (size.x - 1 - i.x) := by
  unfold linearIdx; ring

theorem rowMajor_range {w h a b : Int} (ha : 0 ≤ a) (ha' : a < w) (hb : 0 ≤ b) (hb' : b < h) :
    0 ≤ b * w + a ∧ b * w + a < w * h := by
  constructor
  · have := mul_nonneg hb (show 0 ≤ w by omega); omega
  · have : (b + 1) * w ≤ h * w := mul_le_mul_of_nonneg_right (by omega) (by omega)
    have e : (b + 1) * w = b * w + w := by ring
    have e2 : h * w = w * h := by ring
    omega

theorem rowMajor_inj {w a b a' b' : Int} (ha : 0 ≤ a) (ha' : a < w) (hb : 0 ≤ a') (hb' : a' < w)
    (h : b * w + a = b' * w + a') : a = a' ∧ b = b' := by
  have w0 : w ≠ 0 := by omega
  have h1 : (b * w + a) % w = a := by
    rw [Int.add_comm, Int.add_mul_emod_self_right]; exact Int.emod_eq_of_lt ha ha'
  have h2 : (b' * w + a') % w = a' := by
    rw [Int.add_comm, Int.add_mul_emod_self_right]; exact Int.emod_eq_of_lt hb hb'
  have e : a = a' := by rw [← h1, ← h2, h]
  subst e
  exact ⟨rfl, mul_right_cancel₀ w0 (by omega)⟩

namespace CostMap

/-- The run of `toOccupancyGrid` on a map with cells. -/
theorem toOccupancyGrid_run (rf : K → K) {m : CostMap K} (hg : m.Geo) (hc : m.Coherent) {l : String}
    (hl : m.exists l = true) (ht : m.timestamp < 2 ^ 32 * 1000000000) (old : List Int) :
    ∃ g, m.toOccupancyGrid rf l old = .ok g ∧ g.frameId = m.frameId ∧
      stampToNSec g.stampSec g.stampNsec = m.timestamp ∧ g.resolution = rf m.resolution ∧
      g.width = m.size.x ∧ g.height = m.size.y ∧
      g.origin = ⟨m.position.x - 1 / 2 * m.length.x, m.position.y - 1 / 2 * m.length.y⟩ ∧
      (g.data.length : Int) = m.size.x * m.size.y ∧
      ∀ i : Idx, i.In m.size → ∃ c, m.at l i = .ok c ∧
        g.data[((m.size.y - 1 - i.y) * m.size.x + (m.size.x - 1 - i.x)).toNat]? = some (occupancyOf c) := by
  obtain ⟨s, n, e1, e2⟩ := stampOf_ok ht
  have hn : 0 ≤ m.size.x * m.size.y := mul_nonneg hg.size_x.le hg.size_y.le
  have hn' : (((m.size.x * m.size.y).toNat : Nat) : Int) = m.size.x * m.size.y := Int.toNat_of_nonneg hn
  have hv : ∀ i ∈ m.cells, ∃ c, m.at l i = .ok c := fun i hi => hc.at_ok hl ((mem_cells hg.start).1 hi)
  let v : Idx → Int := fun i => match m.at l i with | .ok c => occupancyOf c | _ => 0
  obtain ⟨d, h1, h2, h3, -⟩ := forEach_setElem (xs := m.cells)
    (body := m.occupancyCell l (m.size.x * m.size.y).toNat)
    (k := fun i => (m.size.y - 1 - i.y) * m.size.x + (m.size.x - 1 - i.x)) (v := v)
    (d := resized old (m.size.x * m.size.y).toNat)
    (by
      intro i hi s
      obtain ⟨c, hcc⟩ := hv i hi
      have ho := occupancyIndex m.size i
      simp only [occupancyCell, hcc, v]
      rw [Act.bind_ok (show Act.lift (Res.ok c) s = (.ok c, s) from rfl),
        Act.bind_ok (show Act.lift (toInt8 (occupancyFloat c)) s = (.ok (occupancyOf c), s) by
          rw [occupancyFloat_eq]; rfl), hn', ho])
    (by
      intro i hi
      obtain ⟨i1, i2, i3, i4⟩ := (mem_cells hg.start).1 hi
      rw [resized_length, hn']
      exact rowMajor_range (by omega) (by omega) (by omega) (by omega))
    (by
      refine List.Nodup.map_on ?_ (cells_nodup hg.start)
      intro i hi j hj hij
      obtain ⟨i1, i2, i3, i4⟩ := (mem_cells hg.start).1 hi
      obtain ⟨j1, j2, j3, j4⟩ := (mem_cells hg.start).1 hj
      have := rowMajor_inj (by omega) (by omega) (by omega) (by omega) hij
      exact Idx.ext (by omega) (by omega))
  have key : Act.forIter CostMapIter.ops (m.occupancyCell l (m.size.x * m.size.y).toNat)
      (m.size.x.toNat * m.size.y.toNat + 2) (CostMapIter.new m) (resized old (m.size.x * m.size.y).toNat) = (.ok (), d) := by
    rw [← h1]
    refine Act.forIter_eq _ (costMapIter_visits hg.start clamp1) _ ?_ _
    rw [List.length_map, rowMajor_length]
    omega
  let g : OccupancyGrid K := ⟨m.frameId, s, n, rf m.resolution, m.size.x, m.size.y,
    ⟨m.position.x - 1 / 2 * m.length.x, m.position.y - 1 / 2 * m.length.y⟩, d⟩
  have hrun : m.toOccupancyGrid rf l old = .ok g := by
    simp only [toOccupancyGrid, e1, Res.bind_ok, key, g]
  refine ⟨g, hrun, rfl, e2, rfl, rfl, rfl, rfl, ?_, ?_⟩
  · rw [← hn', ← resized_length old (m.size.x * m.size.y).toNat, ← h2]
  · intro i hi
    have hm := (mem_cells hg.start).2 hi
    obtain ⟨c, hcc⟩ := hv i hm
    refine ⟨c, hcc, ?_⟩
    have := h3 i hm
    simpa only [v, hcc] using this

end CostMap
end CostMapModel

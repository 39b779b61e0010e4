import Verif.Lemmas.Polygon
import Verif.Props.Geometry
import Mathlib.Tactic.LinearCombination

/-!
# Iterators over cells: C15 - C19
-/

set_option linter.unusedSectionVars false

namespace CostMapModel
open CostMap
variable {K : Type} [Field K] [LinearOrder K] [IsStrictOrderedRing K] [FloorRing K]

theorem unwrap_eq_logical {m : CostMap K} {i : Idx} (hi : i.In m.size) :
    unwrapIdx i m.size m.startIndex = m.logical i := by
  unfold unwrapIdx logical
  split
  · rename_i h0
    obtain ⟨h1, h2, h3, h4⟩ := hi
    rw [h0]; ext
    · simp [Int.emod_eq_of_lt h1 h2]
    · simp [Int.emod_eq_of_lt h3 h4]
  · rfl

theorem logical_buffer {m : CostMap K} (hs : m.startIndex.In m.size) {u : Idx} (hu : u.In m.size) :
    m.logical (bufferIdx u m.size m.startIndex) = u := by
  rw [← unwrap_eq_logical (bufferIdx_in hu hs), unwrap_buffer hu hs]

/-! ## C15 -/

/-- C15. The loop over a `CostMapIterator` ends and visits every cell exactly once, in row-major order
of the logical index. -/
theorem C15_visits_every_cell_once {m : CostMap K} (hs : m.startIndex.In m.size) :
    ∃ xs, Visits CostMapIter.ops (CostMapIter.new m) xs ∧
      Enumerates xs (fun i => i.In m.size) ∧
      xs.length = m.size.x.toNat * m.size.y.toNat ∧
      xs.map m.logical = rowMajor m.size := by
  refine ⟨_, costMapIter_visits hs clamp1, ⟨?_, ?_⟩, ?_, ?_⟩
  · refine List.Nodup.map_on ?_ (rowMajor_nodup _)
    intro u hu v hv huv
    rw [mem_rowMajor] at hu hv
    rw [← unwrap_buffer hu hs, ← unwrap_buffer hv hs, huv]
  · intro i
    rw [List.mem_map]
    constructor
    · rintro ⟨u, hu, rfl⟩; exact bufferIdx_in (mem_rowMajor.mp hu) hs
    · intro hi
      exact ⟨_, mem_rowMajor.mpr (unwrapIdx_in hi hs), buffer_unwrap hi hs⟩
  · rw [List.length_map, rowMajor_length]
  · rw [List.map_map]
    conv_rhs => rw [← List.map_id (rowMajor m.size)]
    apply List.map_congr_left
    intro u hu
    exact logical_buffer hs (mem_rowMajor.mp hu)

/-- C15. Before it is past the end, `getUnwrappedIndex()` is the logical index of `*it`. -/
theorem C15_unwrapped_index {m : CostMap K} (it : CostMapIter) (h1 : it.size = m.size)
    (h2 : it.startIndex = m.startIndex) (h3 : it.index.In m.size) : it.unwrapped = m.logical it.index := by
  rw [CostMapIter.unwrapped, h1, h2]; exact unwrap_eq_logical h3

/-- C15, why the map must have cells: on a default constructed map the loop body runs once, with an index
at which no layer has a cell. -/
theorem C15_empty_map_visits_one :
    Visits CostMapIter.ops (CostMapIter.new (CostMap.new ["a"] : CostMap ℚ)) [0] ∧
      (CostMap.new ["a"] : CostMap ℚ).at "a" 0 = .ub :=
  ⟨.step rfl rfl rfl (.done (by decide)), by decide +kernel⟩

theorem rowMajor_getLast {size : Idx} (hx : 0 < size.x) (hy : 0 < size.y) :
    (rowMajor size).getLast? = some ⟨size.x - 1, size.y - 1⟩ := by
  obtain ⟨a, ha⟩ := Int.eq_ofNat_of_zero_le (by omega : 0 ≤ size.x - 1)
  obtain ⟨b, hb⟩ := Int.eq_ofNat_of_zero_le (by omega : 0 ≤ size.y - 1)
  have ex : size.x.toNat = a + 1 := by omega
  have ey : size.y.toNat = b + 1 := by omega
  have en : (a + 1) * (b + 1) = a * (b + 1) + b + 1 := by ring
  rw [rowMajor_eq, List.getLast?_map, ex, ey, en, List.range_succ, List.getLast?_concat, Option.map_some]
  have hd : (a * (b + 1) + b) / (b + 1) = a := by
    rw [Nat.mul_comm a, Nat.mul_add_div (by omega), Nat.div_eq_of_lt (by omega), Nat.add_zero]
  have hm : (a * (b + 1) + b) % (b + 1) = b := by
    rw [Nat.mul_comm a, Nat.mul_add_mod, Nat.mod_eq_of_lt (by omega)]
  rw [rm, ey, hd, hm, ha, hb]

/-- C61 (partial: only for maps whose buffer was never rotated; false otherwise, see
`C61_end_is_not_the_last_cell`). `end()` is the last cell of the iteration. -/
theorem C61_end_is_last_cell_partial {m : CostMap K} (h0 : m.startIndex = 0) (hx : 0 < m.size.x)
    (hy : 0 < m.size.y) :
    ∃ xs, Visits CostMapIter.ops (CostMapIter.new m) xs ∧ xs.getLast? = some (CostMapIter.new m).end.index := by
  have hs : m.startIndex.In m.size := by rw [h0]; exact ⟨le_refl _, hx, le_refl _, hy⟩
  refine ⟨_, costMapIter_visits hs clamp1, ?_⟩
  rw [List.getLast?_map, rowMajor_getLast hx hy, h0, Option.map_some]
  congr 1
  have e1 : ¬ m.size.x - 1 < 0 := by omega
  have e2 : ¬ m.size.y - 1 < 0 := by omega
  ext
  · simp [bufferIdx, CostMapIter.new, CostMapIter.newWith, CostMapIter.end, bound2, clamp1, h0, e1]
  · simp [bufferIdx, CostMapIter.new, CostMapIter.newWith, CostMapIter.end, bound2, clamp1, h0, e2]

/-- D19. C61 is false for a map that was moved: `end()` is another cell than the last one visited, because
`boundIndexToRange` clamps where the buffer wraps. -/
theorem C61_end_is_not_the_last_cell :
    ∃ xs, Visits CostMapIter.ops (CostMapIter.new Demo.rotated) xs ∧
      xs.getLast? = some ⟨2, 1⟩ ∧ (CostMapIter.new Demo.rotated).end.index = ⟨4, 3⟩ := by
  refine ⟨_, costMapIter_visits Demo.rotated_geo.start clamp1, ?_, ?_⟩
  · decide +kernel
  · decide +kernel

example : ∃ xs, Visits CostMapIter.ops (CostMapIter.new Demo.base) xs ∧
    xs.getLast? = some (CostMapIter.new Demo.base).end.index :=
  C61_end_is_last_cell_partial Demo.base_start (by decide +kernel) (by decide +kernel)
example : ∃ xs, Visits CostMapIter.ops (CostMapIter.new Demo.rotated) xs ∧ xs.length = 20 ∧
    xs.map Demo.rotated.logical = rowMajor ⟨5, 4⟩ := by
  obtain ⟨xs, h1, -, h2, h3⟩ := C15_visits_every_cell_once Demo.rotated_geo.start
  exact ⟨xs, h1, h2.trans (by decide +kernel), h3.trans (by decide +kernel)⟩
example : rowMajor ⟨2, 3⟩ = [⟨0, 0⟩, ⟨0, 1⟩, ⟨0, 2⟩, ⟨1, 0⟩, ⟨1, 1⟩, ⟨1, 2⟩] := by decide

/-! ## C16 -/

/-- C16. A `SubmapIterator` over a submap that fits in the map visits exactly the cells whose logical index lies
in the submap, each once, and its submap index runs row-major over the submap, in step. -/
theorem C16_visits_exactly_the_submap {m : CostMap K} (hs : m.startIndex.In m.size) {tl sz : Idx}
    (htl : tl.In m.size) (hx : 0 < sz.x) (hy : 0 < sz.y)
    (fx : (m.logical tl).x + sz.x ≤ m.size.x) (fy : (m.logical tl).y + sz.y ≤ m.size.y) :
    ∃ xs, Visits SubmapIter.opsBoth (SubmapIter.new m tl sz) xs ∧
      xs.map Prod.snd = rowMajor sz ∧
      (∀ e ∈ xs, e.1.In m.size ∧ m.logical e.1 = m.logical tl + e.2) ∧
      Enumerates (xs.map Prod.fst) (fun i => i.In m.size ∧ (m.logical i - m.logical tl).In sz) ∧
      xs.length = sz.x.toNat * sz.y.toNat := by
  have hT := unwrapIdx_in htl hs
  rw [unwrap_eq_logical htl] at hT
  have hfit : ∀ u, u.In sz → (m.logical tl + u).In m.size := by
    rintro u ⟨u1, u2, u3, u4⟩
    obtain ⟨t1, t2, t3, t4⟩ := hT
    refine ⟨?_, ?_, ?_, ?_⟩ <;> simp only [Idx.add_x, Idx.add_y] <;> omega
  have hv := submapIter_visits hs htl hx hy
  rw [unwrap_eq_logical htl] at hv
  refine ⟨_, hv, ?_, ?_, ⟨?_, ?_⟩, ?_⟩
  · rw [List.map_map]
    conv_rhs => rw [← List.map_id (rowMajor sz)]
    rfl
  · intro e he
    obtain ⟨u, hu, rfl⟩ := List.mem_map.mp he
    have := hfit u (mem_rowMajor.mp hu)
    exact ⟨bufferIdx_in this hs, logical_buffer hs this⟩
  · rw [List.map_map]
    refine List.Nodup.map_on ?_ (rowMajor_nodup _)
    intro u hu v hv huv
    have h1 := hfit u (mem_rowMajor.mp hu)
    have h2 := hfit v (mem_rowMajor.mp hv)
    have := congrArg m.logical huv
    simp only [Function.comp] at this
    rw [logical_buffer hs h1, logical_buffer hs h2] at this
    have e1 := congrArg Idx.x this
    have e2 := congrArg Idx.y this
    simp only [Idx.add_x, Idx.add_y] at e1 e2
    exact Idx.ext (by omega) (by omega)
  · intro i
    rw [List.map_map, List.mem_map]
    constructor
    · rintro ⟨u, hu, rfl⟩
      have hu' := mem_rowMajor.mp hu
      have := hfit u hu'
      simp only [Function.comp]
      refine ⟨bufferIdx_in this hs, ?_⟩
      rw [logical_buffer hs this]
      have e : m.logical tl + u - m.logical tl = u := by ext <;> simp
      rw [e]; exact hu'
    · rintro ⟨hi, hu⟩
      refine ⟨_, mem_rowMajor.mpr hu, ?_⟩
      have e : m.logical tl + (m.logical i - m.logical tl) = m.logical i := by ext <;> simp
      simp only [Function.comp]
      rw [e, ← unwrap_eq_logical hi, buffer_unwrap hi hs]
  · rw [List.length_map, rowMajor_length]

/-- C16, what is excluded: for a submap size without cells the loop body still runs once. -/
theorem C16_empty_submap_visits_one (m : CostMap K) (tl sz : Idx) (h : ¬ (0 < sz.x ∧ 0 < sz.y)) :
    Visits SubmapIter.ops (SubmapIter.new m tl sz) [tl] := submapIter_visits_empty m tl sz h

example : ∃ xs, Visits SubmapIter.opsBoth (SubmapIter.new Demo.rotated ⟨4, 3⟩ ⟨3, 2⟩) xs ∧ xs.length = 6 := by
  obtain ⟨xs, h1, -, -, -, h2⟩ := C16_visits_exactly_the_submap Demo.rotated_geo.start (tl := ⟨4, 3⟩)
    (sz := ⟨3, 2⟩) (by decide +kernel) (by decide) (by decide) (by decide +kernel) (by decide +kernel)
  exact ⟨xs, h1, h2⟩

/-! ## C17 circle -/

/-- The corners of the box that circle and ellipse iterators walk are in order in the buffer, i.e. the seam of
the circular buffer does not run through the box. Always true for a map whose start index is zero. -/
def SeamFree (m : CostMap K) (tl br : Vec K) : Prop :=
  (m.getIndex (boundPosition tl m.length m.position)).1.x ≤
    (m.getIndex (boundPosition br m.length m.position)).1.x ∧
  (m.getIndex (boundPosition tl m.length m.position)).1.y ≤
    (m.getIndex (boundPosition br m.length m.position)).1.y

theorem buf_sub {T B n s : Int} (hT : 0 ≤ T) (hB : B < n) (hTB : T ≤ B) :
    (buf T n s ≤ buf B n s → buf B n s - buf T n s = B - T) ∧
    (¬ buf T n s ≤ buf B n s → buf B n s - buf T n s + 1 ≤ 0) := by
  unfold buf
  split <;> split <;> constructor <;> omega

theorem box_of_seamFree {m : CostMap K} (h : m.Geo) {tl br : Vec K} (htl : EpsOk m tl) (hbr : EpsOk m br)
    (hx : br.x ≤ tl.x) (hy : br.y ≤ tl.y) (hf : SeamFree m tl br) :
    boxFromBufferIndices m tl br = (bufferIdx (cornerCell m tl) m.size m.startIndex,
      cornerCell m br - cornerCell m tl + Idx.ones) := by
  unfold SeamFree at hf
  unfold boxFromBufferIndices
  rw [corner_index h htl, corner_index h hbr] at *
  have hT := cornerCell_in h htl
  have hB := cornerCell_in h hbr
  obtain ⟨l1, l2⟩ := corners_le h htl hbr hx hy
  simp only at hf ⊢
  rw [bufferIdx_eq hT h.start, bufferIdx_eq hB h.start] at *
  obtain ⟨s1, s2, s3, s4⟩ := h.start
  obtain ⟨t1, t2, t3, t4⟩ := hT
  obtain ⟨b1, b2, b3, b4⟩ := hB
  have e1 := (buf_sub (n := m.size.x) t1 b2 l1).1 hf.1
  have e2 := (buf_sub (n := m.size.y) t3 b4 l2).1 hf.2
  congr 1
  ext
  · simp only [Idx.add_x, Idx.sub_x]; rw [e1]
  · simp only [Idx.add_y, Idx.sub_y]; rw [e2]

theorem box_of_seam {m : CostMap K} (h : m.Geo) {tl br : Vec K} (htl : EpsOk m tl) (hbr : EpsOk m br)
    (hx : br.x ≤ tl.x) (hy : br.y ≤ tl.y) (hf : ¬ SeamFree m tl br) :
    (boxFromBufferIndices m tl br).1 = bufferIdx (cornerCell m tl) m.size m.startIndex ∧
    ¬ (0 < (boxFromBufferIndices m tl br).2.x ∧ 0 < (boxFromBufferIndices m tl br).2.y) := by
  unfold SeamFree at hf
  unfold boxFromBufferIndices
  rw [corner_index h htl, corner_index h hbr] at *
  have hT := cornerCell_in h htl
  have hB := cornerCell_in h hbr
  obtain ⟨l1, l2⟩ := corners_le h htl hbr hx hy
  simp only at hf ⊢
  refine ⟨trivial, ?_⟩
  rw [bufferIdx_eq hT h.start, bufferIdx_eq hB h.start] at *
  obtain ⟨s1, s2, s3, s4⟩ := h.start
  obtain ⟨t1, t2, t3, t4⟩ := hT
  obtain ⟨b1, b2, b3, b4⟩ := hB
  have e1 := (buf_sub (n := m.size.x) (s := m.startIndex.x) t1 b2 l1).2
  have e2 := (buf_sub (n := m.size.y) (s := m.startIndex.y) t3 b4 l2).2
  simp only [Idx.add_x, Idx.sub_x, Idx.add_y, Idx.sub_y, Idx.ones_x, Idx.ones_y]
  rintro ⟨g1, g2⟩
  apply hf
  constructor
  · by_contra hn
    have := e1 hn
    omega
  · by_contra hn
    have := e2 hn
    omega

/-- With the seam in the box, a circle or ellipse iterator looks at one cell only. -/
theorem seam_visits {m : CostMap K} (h : m.Geo) (shape : Vec K → Bool) {tl br : Vec K}
    (htl : EpsOk m tl) (hbr : EpsOk m br) (hx : br.x ≤ tl.x) (hy : br.y ≤ tl.y) (hf : ¬ SeamFree m tl br) :
    ∃ it xs, ShapeIter.newWith m shape (boxFromBufferIndices m tl br).1 (boxFromBufferIndices m tl br).2 = .ok it ∧
      Visits ShapeIter.ops it xs ∧ xs.length ≤ 1 := by
  obtain ⟨e, hn⟩ := box_of_seam h htl hbr hx hy hf
  have hin := bufferIdx_in (cornerCell_in h htl) h.start
  rw [← e] at hin
  obtain ⟨it, h1, h2⟩ := ShapeIter.newWith_visits m shape _ _ (fun i => match m.getPosition i with
    | some p => shape p
    | none => false) (submapIter_visits_empty m (boxFromBufferIndices m tl br).1 _ hn) (by simp) (by
      intro i hi
      rw [List.mem_singleton] at hi
      subst hi
      refine ⟨_, getPosition_eq hin, ?_⟩
      simp only [getPosition_eq hin])
  exact ⟨it, _, h1, h2, by
    refine le_trans (List.length_filter_le _ _) ?_
    simp⟩

theorem seamFree_of_unmoved {m : CostMap K} (h : m.Geo) (h0 : m.startIndex = 0) {tl br : Vec K}
    (htl : EpsOk m tl) (hbr : EpsOk m br) (hx : br.x ≤ tl.x) (hy : br.y ≤ tl.y) : SeamFree m tl br := by
  unfold SeamFree
  rw [corner_index h htl, corner_index h hbr, h0]
  simpa [bufferIdx] using corners_le h htl hbr hx hy

/-- C17 (partial: needs the circular-buffer seam outside the circle's box, and the guard margin of
grid_map below one cell; missing: moved maps, where the claim is false, see
`C17_false_across_the_seam`). The iteration ends and visits exactly the cells whose centre is within
the radius, each once. -/
theorem C17_circle_partial {m : CostMap K} (h : m.Geo) (center : Vec K) {radius : K} (hr : 0 ≤ radius)
    (htl : EpsOk m ⟨center.x + radius, center.y + radius⟩)
    (hbr : EpsOk m ⟨center.x - radius, center.y - radius⟩)
    (hf : SeamFree m ⟨center.x + radius, center.y + radius⟩ ⟨center.x - radius, center.y - radius⟩) :
    ∃ it xs, circleIter m center radius = .ok it ∧ Visits ShapeIter.ops it xs ∧
      Enumerates xs (fun i => ∃ p, m.getPosition i = some p ∧ dist2 p center ≤ radius ^ 2) := by
  have hx : center.x - radius ≤ center.x + radius := by linarith
  have hy : center.y - radius ≤ center.y + radius := by linarith
  obtain ⟨it, xs, h1, h2, h3⟩ := box_enumerates h (circleShape center radius) htl hbr hx hy (by
    intro p hp
    simp only [circleShape, decide_eq_true_eq] at hp
    have a1 : (p.x - center.x) ^ 2 ≤ radius ^ 2 := by nlinarith [sq_nonneg (p.y - center.y)]
    have a2 : (p.y - center.y) ^ 2 ≤ radius ^ 2 := by nlinarith [sq_nonneg (p.x - center.x)]
    have b1 := abs_le.mp (abs_le_of_sq_le_sq a1 hr)
    have b2 := abs_le.mp (abs_le_of_sq_le_sq a2 hr)
    refine ⟨⟨?_, ?_⟩, ?_, ?_⟩ <;> simp only <;> linarith [b1.1, b1.2, b2.1, b2.2])
  refine ⟨it, xs, ?_, h2, ?_⟩
  · unfold circleIter
    simp only
    rw [box_of_seamFree h htl hbr hx hy hf]
    exact h1
  · simpa [circleShape, dist2] using h3

/-- C17 for maps whose buffer was never rotated. -/
theorem C17_circle_unmoved_partial {m : CostMap K} (h : m.Geo) (h0 : m.startIndex = 0) (center : Vec K)
    {radius : K} (hr : 0 ≤ radius) (htl : EpsOk m ⟨center.x + radius, center.y + radius⟩)
    (hbr : EpsOk m ⟨center.x - radius, center.y - radius⟩) :
    ∃ it xs, circleIter m center radius = .ok it ∧ Visits ShapeIter.ops it xs ∧
      Enumerates xs (fun i => ∃ p, m.getPosition i = some p ∧ dist2 p center ≤ radius ^ 2) :=
  C17_circle_partial h center hr htl hbr (seamFree_of_unmoved h h0 htl hbr (by simp only; linarith)
    (by simp only; linarith))

/-- What really happens when the seam runs through the box: at most one cell is visited. -/
theorem C17_circle_across_the_seam {m : CostMap K} (h : m.Geo) (center : Vec K) {radius : K} (hr : 0 ≤ radius)
    (htl : EpsOk m ⟨center.x + radius, center.y + radius⟩)
    (hbr : EpsOk m ⟨center.x - radius, center.y - radius⟩)
    (hf : ¬ SeamFree m ⟨center.x + radius, center.y + radius⟩ ⟨center.x - radius, center.y - radius⟩) :
    ∃ it xs, circleIter m center radius = .ok it ∧ Visits ShapeIter.ops it xs ∧ xs.length ≤ 1 :=
  seam_visits h (circleShape center radius) htl hbr (by simp only; linarith) (by simp only; linarith) hf

instance (m : CostMap ℚ) (tl br : Vec ℚ) : Decidable (SeamFree m tl br) := by
  unfold SeamFree; infer_instance

instance (m : CostMap ℚ) (p : Vec ℚ) : Decidable (EpsOk m p) := by
  unfold EpsOk; infer_instance

theorem mem_of_length_le_one {xs : List Idx} (h : xs.length ≤ 1) {a b : Idx} (ha : a ∈ xs) (hb : b ∈ xs) :
    a = b := by
  match xs, h with
  | [], _ => cases ha
  | [x], _ => rw [List.mem_singleton] at ha hb; rw [ha, hb]

/-- D6. C17 is false on a moved map: both cells below are in the circle, but not both are visited. -/
theorem C17_false_across_the_seam :
    ∃ it xs, circleIter Demo.rotated ⟨1, -1⟩ 1 = .ok it ∧ Visits ShapeIter.ops it xs ∧
      (∃ p, Demo.rotated.getPosition ⟨0, 0⟩ = some p ∧ dist2 p ⟨1, -1⟩ ≤ 1 ^ 2) ∧
      (∃ p, Demo.rotated.getPosition ⟨0, 3⟩ = some p ∧ dist2 p ⟨1, -1⟩ ≤ 1 ^ 2) ∧
      ¬ ((⟨0, 0⟩ : Idx) ∈ xs ∧ (⟨0, 3⟩ : Idx) ∈ xs) := by
  obtain ⟨it, xs, h1, h2, h3⟩ := C17_circle_across_the_seam Demo.rotated_geo ⟨1, -1⟩ (radius := 1)
    (by norm_num) (by decide +kernel) (by decide +kernel) (by decide +kernel)
  refine ⟨it, xs, h1, h2, ⟨⟨1, -5 / 4⟩, by decide +kernel, by norm_num [dist2]⟩,
    ⟨⟨1, -3 / 4⟩, by decide +kernel, by norm_num [dist2]⟩, ?_⟩
  rintro ⟨ha, hb⟩
  have := mem_of_length_le_one h3 ha hb
  cases this

example : ∃ it xs, circleIter Demo.base ⟨1, -1⟩ 1 = .ok it ∧ Visits ShapeIter.ops it xs ∧ (⟨2, 2⟩ : Idx) ∈ xs := by
  obtain ⟨it, xs, h1, h2, h3⟩ := C17_circle_partial Demo.base_geo ⟨1, -1⟩ (radius := 1)
    (by norm_num) (by decide +kernel) (by decide +kernel) (by decide +kernel)
  exact ⟨it, xs, h1, h2, (h3.2 _).mpr ⟨⟨1, -5 / 4⟩, by decide +kernel, by norm_num [dist2]⟩⟩

/-! ## C18 ellipse -/

theorem ellipseShape_iff {center len : Vec K} {c s : K} (hcs : c ^ 2 + s ^ 2 = 1) (hx : len.x ≠ 0)
    (hy : len.y ≠ 0) (p : Vec K) : ellipseShape center len c s p = true ↔ InEllipse center len c s p := by
  have hax : (1 / 2 * len.x) ^ 2 ≠ 0 := by
    apply pow_ne_zero; exact mul_ne_zero (by norm_num) hx
  have hay : (1 / 2 * len.y) ^ 2 ≠ 0 := by
    apply pow_ne_zero; exact mul_ne_zero (by norm_num) hy
  simp only [ellipseShape, hax, hay, or_self, if_false, decide_eq_true_eq]
  have e1 : ∀ a : K, a ^ 2 / (1 / 2 * len.x) ^ 2 = (a / (len.x / 2)) ^ 2 := by
    intro a; rw [div_pow]; congr 1; ring
  have e2 : ∀ a : K, a ^ 2 / (1 / 2 * len.y) ^ 2 = (a / (len.y / 2)) ^ 2 := by
    intro a; rw [div_pow]; congr 1; ring
  rw [e1, e2]
  constructor
  · intro h
    refine ⟨c * (p.x - center.x) + s * (p.y - center.y), -(s * (p.x - center.x) + -c * (p.y - center.y)),
      ?_, ?_, ?_⟩
    · linear_combination -(p.x - center.x) * hcs
    · linear_combination -(p.y - center.y) * hcs
    · rw [neg_div, neg_sq]; exact h
  · rintro ⟨a, b, h1, h2, h3⟩
    have ha : c * (p.x - center.x) + s * (p.y - center.y) = a := by
      rw [h1, h2]; linear_combination a * hcs
    have hb : s * (p.x - center.x) + -c * (p.y - center.y) = -b := by
      rw [h1, h2]; linear_combination -b * hcs
    rw [ha, hb, neg_div, neg_sq]; exact h3

/-- One axis of the bounding box of an ellipse. -/
theorem ellipse_box_axis {c s lx ly a b h : K} (hx : lx ≠ 0) (hy : ly ≠ 0) (hh : 0 ≤ h)
    (h2 : h ^ 2 = (c * lx) ^ 2 + (-s * ly) ^ 2) (hin : (a / (lx / 2)) ^ 2 + (b / (ly / 2)) ^ 2 ≤ 1) :
    -h ≤ a * c - b * s ∧ a * c - b * s ≤ h := by
  set X := a / (lx / 2) with hX
  set Y := b / (ly / 2) with hY
  have ea : a = X * (lx / 2) := by rw [hX]; field_simp
  have eb : b = Y * (ly / 2) := by rw [hY]; field_simp
  have key : (a * c - b * s) ^ 2 ≤ h ^ 2 := by
    rw [ea, eb, h2]
    nlinarith [sq_nonneg (X * (s * ly) + Y * (c * lx)), sq_nonneg (c * lx), sq_nonneg (s * ly),
      mul_nonneg (sub_nonneg.mpr hin) (sq_nonneg (c * lx)), mul_nonneg (sub_nonneg.mpr hin) (sq_nonneg (s * ly))]
  exact abs_le.mp (abs_le_of_sq_le_sq key hh)

/-- The half side lengths of the ellipse iterator's bounding box. -/
def ellipseHalf (sqrt : K → K) (len : Vec K) (c s : K) : Vec K :=
  ⟨sqrt ((c * len.x) ^ 2 + (-s * len.y) ^ 2), sqrt ((s * len.x) ^ 2 + (c * len.y) ^ 2)⟩

/-- `sqrt` is exact at `x`. -/
def SqrtOk (sqrt : K → K) (x : K) : Prop := 0 ≤ sqrt x ∧ sqrt x ^ 2 = x

/-- C18 (partial: same restrictions as C17, and non-zero axis lengths). `c` and `s` are cosine and sine
of the rotation, `sqrt` is a square root that is exact where the constructor uses it. -/
theorem C18_ellipse_partial {m : CostMap K} (h : m.Geo) {sqrt : K → K}
    (center : Vec K) {len : Vec K} {c s : K} (sx : SqrtOk sqrt ((c * len.x) ^ 2 + (-s * len.y) ^ 2))
    (sy : SqrtOk sqrt ((s * len.x) ^ 2 + (c * len.y) ^ 2))
    (hcs : c ^ 2 + s ^ 2 = 1) (hlx : len.x ≠ 0) (hly : len.y ≠ 0)
    (htl : EpsOk m ⟨center.x + (ellipseHalf sqrt len c s).x, center.y + (ellipseHalf sqrt len c s).y⟩)
    (hbr : EpsOk m ⟨center.x - (ellipseHalf sqrt len c s).x, center.y - (ellipseHalf sqrt len c s).y⟩)
    (hf : SeamFree m ⟨center.x + (ellipseHalf sqrt len c s).x, center.y + (ellipseHalf sqrt len c s).y⟩
      ⟨center.x - (ellipseHalf sqrt len c s).x, center.y - (ellipseHalf sqrt len c s).y⟩) :
    ∃ it xs, ellipseIter sqrt m center len c s = .ok it ∧ Visits ShapeIter.ops it xs ∧
      Enumerates xs (fun i => ∃ p, m.getPosition i = some p ∧ InEllipse center len c s p) := by
  have hx : center.x - (ellipseHalf sqrt len c s).x ≤ center.x + (ellipseHalf sqrt len c s).x := by
    simp only [ellipseHalf]; linarith [sx.1]
  have hy : center.y - (ellipseHalf sqrt len c s).y ≤ center.y + (ellipseHalf sqrt len c s).y := by
    simp only [ellipseHalf]; linarith [sy.1]
  obtain ⟨it, xs, h1, h2, h3⟩ := box_enumerates h (ellipseShape center len c s) htl hbr hx hy (by
    intro p hp
    rw [ellipseShape_iff hcs hlx hly] at hp
    obtain ⟨a, b, e1, e2, hin⟩ := hp
    have b1 := ellipse_box_axis (c := c) (s := s) hlx hly sx.1 sx.2 hin
    have b2 := ellipse_box_axis (c := s) (s := -c) hlx hly sy.1 (by rw [sy.2]; ring) hin
    have e2' : a * s - b * -c = a * s + b * c := by ring
    rw [e2'] at b2
    rw [← e1] at b1
    rw [← e2] at b2
    simp only [ellipseHalf]
    refine ⟨⟨?_, ?_⟩, ?_, ?_⟩ <;> linarith [b1.1, b1.2, b2.1, b2.2])
  refine ⟨it, xs, ?_, h2, ?_⟩
  · unfold ellipseIter
    simp only
    have := box_of_seamFree h htl hbr hx hy hf
    simp only [ellipseHalf] at this h1
    rw [this]
    exact h1
  · simpa [ellipseShape_iff hcs hlx hly] using h3

/-- What happens when the seam of the buffer runs through the ellipse's box. -/
theorem C18_ellipse_across_the_seam {m : CostMap K} (h : m.Geo) {sqrt : K → K}
    (center : Vec K) {len : Vec K} {c s : K} (sx : SqrtOk sqrt ((c * len.x) ^ 2 + (-s * len.y) ^ 2))
    (sy : SqrtOk sqrt ((s * len.x) ^ 2 + (c * len.y) ^ 2))
    (htl : EpsOk m ⟨center.x + (ellipseHalf sqrt len c s).x, center.y + (ellipseHalf sqrt len c s).y⟩)
    (hbr : EpsOk m ⟨center.x - (ellipseHalf sqrt len c s).x, center.y - (ellipseHalf sqrt len c s).y⟩)
    (hf : ¬ SeamFree m ⟨center.x + (ellipseHalf sqrt len c s).x, center.y + (ellipseHalf sqrt len c s).y⟩
      ⟨center.x - (ellipseHalf sqrt len c s).x, center.y - (ellipseHalf sqrt len c s).y⟩) :
    ∃ it xs, ellipseIter sqrt m center len c s = .ok it ∧ Visits ShapeIter.ops it xs ∧ xs.length ≤ 1 := by
  exact seam_visits h (ellipseShape center len c s) htl hbr (by simp only; linarith [sx.1])
    (by simp only; linarith [sy.1]) hf

/-- D6 for the ellipse: both cells are in the ellipse, but not both are visited. -/
theorem C18_false_across_the_seam :
    ∃ it xs, ellipseIter (fun x => if x = 1 then 1 else 2) Demo.rotated ⟨1, -1⟩ ⟨2, 1⟩ 1 0 = .ok it ∧
      Visits ShapeIter.ops it xs ∧
      (∃ p, Demo.rotated.getPosition ⟨0, 0⟩ = some p ∧ InEllipse ⟨1, -1⟩ ⟨2, 1⟩ 1 0 p) ∧
      (∃ p, Demo.rotated.getPosition ⟨0, 3⟩ = some p ∧ InEllipse ⟨1, -1⟩ ⟨2, 1⟩ 1 0 p) ∧
      ¬ ((⟨0, 0⟩ : Idx) ∈ xs ∧ (⟨0, 3⟩ : Idx) ∈ xs) := by
  obtain ⟨it, xs, h1, h2, h3⟩ := C18_ellipse_across_the_seam Demo.rotated_geo
    (sqrt := fun x => if x = 1 then 1 else 2) ⟨1, -1⟩ (len := ⟨2, 1⟩) (c := 1) (s := 0)
    (by norm_num [SqrtOk]) (by norm_num [SqrtOk])
    (by decide +kernel) (by decide +kernel) (by decide +kernel)
  refine ⟨it, xs, h1, h2, ⟨⟨1, -5 / 4⟩, by decide +kernel, 0, -1 / 4, by norm_num, by norm_num, by norm_num⟩,
    ⟨⟨1, -3 / 4⟩, by decide +kernel, 0, 1 / 4, by norm_num, by norm_num, by norm_num⟩, ?_⟩
  rintro ⟨ha, hb⟩
  have := mem_of_length_le_one h3 ha hb
  cases this

/-! ## C19 polygon -/

theorem crosses_iff_rayHits (p vi vj : Vec K) : crosses p vi vj = true ↔ RayHits p vj vi := by
  unfold crosses RayHits
  simp only [Bool.and_eq_true, decide_eq_true_eq, bne_iff_ne, ne_eq, decide_eq_decide]
  have e : ∀ t, t * (vi.y - vj.y) = p.y - vj.y → vj.y ≠ vi.y →
      vj.x + t * (vi.x - vj.x) = (vj.x - vi.x) * (p.y - vi.y) / (vj.y - vi.y) + vi.x := by
    intro t ht hne
    have hne' : vj.y - vi.y ≠ 0 := sub_ne_zero.mpr hne
    field_simp
    have : p.y = vj.y + t * (vi.y - vj.y) := by rw [ht]; ring
    rw [this]; ring
  constructor
  · rintro ⟨h1, h2⟩
    have hst : (vj.y ≤ p.y ∧ p.y < vi.y) ∨ (vi.y ≤ p.y ∧ p.y < vj.y) := by
      by_cases a : p.y < vi.y
      · by_cases b : p.y < vj.y
        · exact absurd ⟨fun _ => b, fun _ => a⟩ h1
        · exact Or.inl ⟨not_lt.mp b, a⟩
      · by_cases b : p.y < vj.y
        · exact Or.inr ⟨not_lt.mp a, b⟩
        · exact absurd ⟨fun h => absurd h a, fun h => absurd h b⟩ h1
    have hne : vj.y ≠ vi.y := by rcases hst with h | h <;> intro he <;> linarith [h.1, h.2]
    have hd : vi.y - vj.y ≠ 0 := sub_ne_zero.mpr (Ne.symm hne)
    have ht : (p.y - vj.y) / (vi.y - vj.y) * (vi.y - vj.y) = p.y - vj.y := div_mul_cancel₀ _ hd
    refine ⟨hst, (p.y - vj.y) / (vi.y - vj.y), ?_, ?_, by rw [ht]; ring, by rw [e _ ht hne]; exact h2⟩
    · rcases hst with ⟨a, b⟩ | ⟨a, b⟩
      · exact div_nonneg (by linarith) (by linarith)
      · exact div_nonneg_of_nonpos (by linarith) (by linarith)
    · rcases hst with ⟨a, b⟩ | ⟨a, b⟩
      · rw [div_le_one (by linarith)]; linarith
      · rw [div_le_one_of_neg (by linarith)]; linarith
  · rintro ⟨hst, t, -, -, ht, hlt⟩
    have hne : vj.y ≠ vi.y := by rcases hst with h | h <;> intro he <;> linarith [h.1, h.2]
    refine ⟨?_, by rw [← e t (by rw [ht]; ring) hne]; exact hlt⟩
    rcases hst with ⟨a, b⟩ | ⟨a, b⟩
    · intro hh; exact absurd (hh.mp b) (not_lt.mpr a)
    · intro hh; exact absurd (hh.mpr b) (not_lt.mpr a)

theorem edges_perm (vs : List (Vec K)) (l : Vec K) (hl : vs.getLast? = some l) :
    List.Perm (List.zip (l :: vs) vs) (polygonEdges vs) := by
  unfold polygonEdges
  cases vs with
  | nil => cases hl
  | cons a t =>
    have hrot : (a :: t).rotate 1 = t ++ [a] := by simp
    rw [hrot, List.zip_cons_cons]
    have key : ∀ (t : List (Vec K)) (a b : Vec K), (a :: t).zip (t ++ [b]) =
        (a :: t).zip t ++ [((a :: t).getLast (by simp), b)] := by
      intro t
      induction t with
      | nil => intro a b; simp
      | cons c t ih =>
        intro a b
        rw [List.cons_append, List.zip_cons_cons, ih c b, List.zip_cons_cons, List.cons_append,
          List.getLast_cons (a := a) (l := c :: t) (by simp)]
    rw [key]
    have : (a :: t).getLast (by simp) = l := by
      rw [List.getLast?_eq_some_getLast (by simp)] at hl; cases hl; rfl
    rw [this]
    exact List.perm_append_comm (l₁ := [(l, a)])

theorem polygonInside_iff (vs : List (Vec K)) (p : Vec K) : polygonInside vs p = true ↔ EvenOdd vs p := by
  classical
  unfold polygonInside EvenOdd
  split
  · rename_i h
    have : vs = [] := by simpa using h
    subst this
    simp [polygonEdges]
  · rename_i l hl
    rw [← (edges_perm vs l hl).countP_eq, ← List.countP_eq_length_filter, decide_eq_true_eq]
    have : ∀ e : Vec K × Vec K, crosses p e.2 e.1 = decide (RayHits p e.1 e.2) := by
      intro e
      rw [Bool.eq_iff_iff, crosses_iff_rayHits, decide_eq_true_eq]
    simp only [this]

theorem foldl_max_attained (vs : List (Vec K)) (a : Vec K) :
    let t := vs.foldl (fun a b => (⟨max a.x b.x, max a.y b.y⟩ : Vec K)) a
    (∃ v ∈ a :: vs, t.x = v.x) ∧ (∃ v ∈ a :: vs, t.y = v.y) := by
  induction vs generalizing a with
  | nil => simp
  | cons v vs ih =>
    simp only [List.foldl_cons]
    obtain ⟨⟨w, hw, h1⟩, ⟨u, hu, h2⟩⟩ := ih ⟨max a.x v.x, max a.y v.y⟩
    constructor
    · rcases List.mem_cons.mp hw with rfl | hw
      · rcases max_choice a.x v.x with h | h
        · exact ⟨a, by simp, h1.trans h⟩
        · exact ⟨v, by simp, h1.trans h⟩
      · exact ⟨w, by simp [hw], h1⟩
    · rcases List.mem_cons.mp hu with rfl | hu
      · rcases max_choice a.y v.y with h | h
        · exact ⟨a, by simp, h2.trans h⟩
        · exact ⟨v, by simp, h2.trans h⟩
      · exact ⟨u, by simp [hu], h2⟩

theorem foldl_min_attained (vs : List (Vec K)) (a : Vec K) :
    let t := vs.foldl (fun a b => (⟨min a.x b.x, min a.y b.y⟩ : Vec K)) a
    (∃ v ∈ a :: vs, t.x = v.x) ∧ (∃ v ∈ a :: vs, t.y = v.y) := by
  induction vs generalizing a with
  | nil => simp
  | cons v vs ih =>
    simp only [List.foldl_cons]
    obtain ⟨⟨w, hw, h1⟩, ⟨u, hu, h2⟩⟩ := ih ⟨min a.x v.x, min a.y v.y⟩
    constructor
    · rcases List.mem_cons.mp hw with rfl | hw
      · rcases min_choice a.x v.x with h | h
        · exact ⟨a, by simp, h1.trans h⟩
        · exact ⟨v, by simp, h1.trans h⟩
      · exact ⟨w, by simp [hw], h1⟩
    · rcases List.mem_cons.mp hu with rfl | hu
      · rcases min_choice a.y v.y with h | h
        · exact ⟨a, by simp, h2.trans h⟩
        · exact ⟨v, by simp, h2.trans h⟩
      · exact ⟨u, by simp [hu], h2⟩

/-- C19. For every start index, the polygon iterator ends and visits exactly the cells whose centre is inside
the polygon, each once. -/
theorem C19_polygon {m : CostMap K} (h : m.Geo) (vs : List (Vec K)) (hne : vs ≠ [])
    (heps : ∀ v ∈ vs, EpsOk m v) :
    ∃ it xs, polygonIter m vs = .ok it ∧ Visits ShapeIter.ops it xs ∧
      Enumerates xs (fun i => ∃ p, m.getPosition i = some p ∧ EvenOdd vs p) := by
  cases vs with
  | nil => exact absurd rfl hne
  | cons v t =>
    have a1 := foldl_max_attained (v :: t) v
    have a2 := foldl_min_attained (v :: t) v
    have g1 := foldl_max_ge (v :: t) v
    have g2 := foldl_min_le (v :: t) v
    simp only at a1 a2 g1 g2
    have hmem : ∀ w, w ∈ v :: v :: t → w ∈ v :: t := by
      intro w hw
      rcases List.mem_cons.mp hw with rfl | hw
      · simp
      · exact hw
    have htl : EpsOk m ((v :: t).foldl (fun a b => (⟨max a.x b.x, max a.y b.y⟩ : Vec K)) v) := by
      obtain ⟨⟨w, hw, e1⟩, ⟨u, hu, e2⟩⟩ := a1
      constructor
      · rw [e1]; exact (heps w (hmem w hw)).1
      · rw [e2]; exact (heps u (hmem u hu)).2
    have hbr : EpsOk m ((v :: t).foldl (fun a b => (⟨min a.x b.x, min a.y b.y⟩ : Vec K)) v) := by
      obtain ⟨⟨w, hw, e1⟩, ⟨u, hu, e2⟩⟩ := a2
      constructor
      · rw [e1]; exact (heps w (hmem w hw)).1
      · rw [e2]; exact (heps u (hmem u hu)).2
    obtain ⟨it, xs, h1, h2, h3⟩ := box_enumerates h (polygonInside (v :: t)) htl hbr
      (by linarith [g1.1.1, g2.1.1]) (by linarith [g1.1.2, g2.1.2]) (by
        intro p hp
        exact polygonInside_in_box (fun w hw => ⟨⟨(g2.2 w hw).1, (g1.2 w hw).1⟩, (g2.2 w hw).2, (g1.2 w hw).2⟩) hp)
    refine ⟨it, xs, ?_, h2, ?_⟩
    · unfold polygonIter
      simp only [submapSizeFromCorners]
      rw [corner_index h htl, corner_index h hbr]
      simp only
      rw [unwrap_buffer (cornerCell_in h htl) h.start, unwrap_buffer (cornerCell_in h hbr) h.start]
      exact h1
    · simpa [polygonInside_iff] using h3

/-- C19, why the polygon needs a vertex: the constructor reads the first vertex. -/
theorem C19_no_vertex_is_ub (m : CostMap K) : polygonIter m [] = .ub := rfl

example : ∃ it xs, polygonIter Demo.rotated [⟨0, -2⟩, ⟨2, -2⟩, ⟨1, 0⟩] = .ok it ∧ Visits ShapeIter.ops it xs ∧
    (⟨0, 0⟩ : Idx) ∈ xs ∧ (⟨3, 2⟩ : Idx) ∉ xs := by
  obtain ⟨it, xs, h1, h2, h3⟩ := C19_polygon Demo.rotated_geo [⟨0, -2⟩, ⟨2, -2⟩, ⟨1, 0⟩] (by simp)
    (by decide +kernel)
  refine ⟨it, xs, h1, h2, (h3.2 _).mpr ⟨⟨1, -5 / 4⟩, by decide +kernel, ?_⟩, ?_⟩
  · rw [← polygonInside_iff]; decide +kernel
  · rw [h3.2]
    rintro ⟨p, hp, hin⟩
    have : Demo.rotated.getPosition ⟨3, 2⟩ = some ⟨2, -1 / 4⟩ := by decide +kernel
    rw [this] at hp; cases hp
    rw [← polygonInside_iff] at hin
    revert hin; decide +kernel

end CostMapModel

import Verif.Spec.Costmap2D
import Verif.Lemmas.Deflate
import Verif.Lemmas.Message
import Verif.Props.Occupancy

/-!
# Lemmas on ROS costmaps
-/

set_option linter.unusedSectionVars false

namespace CostMapModel
open CostMap
variable {K : Type} [Field K] [LinearOrder K] [IsStrictOrderedRing K] [FloorRing K]

namespace Costmap2D

theorem costAt_eq {c : Costmap2D K} {p : Vec K} {col row : Int} (hx : ⌊(p.x - c.origin.x) / c.resolution⌋ = col)
    (hy : ⌊(p.y - c.origin.y) / c.resolution⌋ = row) (c0 : 0 ≤ col) (c1 : col < c.sizeX) (r0 : 0 ≤ row)
    (r1 : row < c.sizeY) : c.costAt p = c.costs[(row * c.sizeX + col).toNat]? := by
  unfold costAt
  simp only [hx, hy]
  rw [if_pos ⟨c0, c1, r0, r1⟩]

end Costmap2D

/-- The element of the reversed storage. -/
theorem reversedMat_get {c : Costmap2D K} (h : c.costs.length = c.sizeX * c.sizeY) :
    ∃ M : Mat Cost, reversedMat c = .ok M ∧ M.rows = c.sizeX ∧ M.cols = c.sizeY ∧
      ∀ i : Idx, i.In ⟨c.sizeX, c.sizeY⟩ → M.get? i.x i.y =
        c.costs[((c.sizeY - 1 - i.y) * c.sizeX + (c.sizeX - 1 - i.x)).toNat]? := by
  refine ⟨⟨c.sizeX, c.sizeY, c.costs.reverse, by simp [h]⟩, by simp only [reversedMat, h, dite_true], rfl, rfl, ?_⟩
  rintro i ⟨i1, i2, i3, i4⟩
  simp only at i2 i4
  have hr : Mat.InRange (⟨c.sizeX, c.sizeY, c.costs.reverse, by simp [h]⟩ : Mat Cost) i.x i.y := ⟨i1, i2, i3, i4⟩
  unfold Mat.get?
  rw [if_pos hr]
  simp only
  have rng := rowMajor_range i1 i2 i3 i4
  have e : ((c.sizeY - 1 - i.y) * c.sizeX + (c.sizeX - 1 - i.x) : Int) =
      (c.sizeX : Int) * c.sizeY - 1 - (i.y * c.sizeX + i.x) := by ring
  rw [List.getElem?_reverse (by rw [h]; have := rng.2; zify; omega), e, h]
  congr 1
  zify
  have := rng.1
  have := rng.2
  omega

/-- Adding the layer to a map of the same size whose buffer starts at zero. -/
theorem addFromCostmap2D_run {c : Costmap2D K} (h : c.costs.length = c.sizeX * c.sizeY) {m : CostMap K} (hc : m.Coherent)
    (hs : m.size = ⟨c.sizeX, c.sizeY⟩) (h0 : m.startIndex = 0) (l : String) :
    ∃ m', addFromCostmap2D c l m = (.ok true, m') ∧ m'.Coherent ∧ SameGeometry m m' ∧ SameMeta m m' ∧
      m'.layers = (if m.exists l then m.layers else m.layers ++ [l]) ∧
      (∀ l' i, l' ≠ l → m'.at l' i = m.at l' i) ∧
      ∀ i : Idx, i.In m.size → ∃ v, m'.at l i = .ok v ∧
        c.costs[((c.sizeY - 1 - i.y) * c.sizeX + (c.sizeX - 1 - i.x)).toNat]? = some v := by
  obtain ⟨M, m1, m2, m3, m4⟩ := reversedMat_get h
  have hr : (M.rows : Int) = m.size.x := by rw [m2, hs]
  have hcl : (M.cols : Int) = m.size.y := by rw [m3, hs]
  obtain ⟨m', e, sg, sm, ly, da⟩ := add_spec l hr hcl
  have hco := add_coherent l M m hc
  rw [e] at hco
  refine ⟨m', ?_, hco, sg, sm, ly, fun l' i hl => at_congr (by rw [da, if_neg hl]) i, fun i hi => ?_⟩
  · unfold addFromCostmap2D
    rw [if_neg (by simp [hs]), if_neg (by simp [h0]), Act.bind_ok (show Act.lift (reversedMat c) m = (.ok M, m) by rw [m1]; rfl),
      Act.bind_ok e]
    rfl
  · obtain ⟨v, hv⟩ := Mat.exists_get? M (i := i.x) (j := i.y) ⟨hi.1, by rw [hr]; exact hi.2.1, hi.2.2.1, by
      rw [hcl]; exact hi.2.2.2⟩
    refine ⟨v, ?_, ?_⟩
    · rw [at_eq (show m'.data l = some M by rw [da, if_pos rfl]), hv]; rfl
    · rw [← m4 i (by rw [← hs]; exact hi), hv]

/-- A layer that holds the reversed char map of a costmap in the same place shows its costs. -/
theorem placed {c : Costmap2D K} {m : CostMap K} (hg : m.Geo) (h0 : m.startIndex = 0)
    (hs : m.size = ⟨c.sizeX, c.sizeY⟩) (hr : c.resolution = m.resolution)
    (ho : c.origin = ⟨m.position.x - 1 / 2 * m.length.x, m.position.y - 1 / 2 * m.length.y⟩) {l : String}
    (hv : ∀ i : Idx, i.In m.size → ∃ v, m.at l i = .ok v ∧
        c.costs[((c.sizeY - 1 - i.y) * c.sizeX + (c.sizeX - 1 - i.x)).toNat]? = some v)
    {i : Idx} {q p : Vec K} (hq : m.getPosition i = some q) (hp : InsideSquare p q m.resolution) :
    ∃ v, c.costAt p = some v ∧ m.atPosition l p = .ok v := by
  obtain ⟨hi, rfl⟩ := getPosition_start_zero h0 hq
  obtain ⟨⟨a1, a2⟩, b1, b2⟩ := hp
  have hcell : m.cellU p = i := (cellU_eq_iff hg p i).2 ⟨⟨a1, a2.le⟩, b1, b2.le⟩
  have hins : m.isInside p = true := by rw [isInside_iff hg, hcell]; exact hi
  have hidx : (m.getIndex p).1 = i := by
    rw [getIndex_fst hg hins, hcell, h0]; simp [bufferIdx]
  obtain ⟨v, h1, h2⟩ := hv i hi
  refine ⟨v, ?_, by rw [atPosition_inside hins, hidx]; exact h1⟩
  have hx : m.size.x = c.sizeX := by rw [hs]
  have hy : m.size.y = c.sizeY := by rw [hs]
  obtain ⟨i1, i2, i3, i4⟩ := hi
  rw [Costmap2D.costAt_eq (col := m.size.x - 1 - i.x) (row := m.size.y - 1 - i.y)
    (by rw [hr, ho]; exact axis_inside hg.res_pos hg.len_x a1 a2) (by rw [hr, ho]; exact axis_inside hg.res_pos hg.len_y b1 b2)
    (by omega) (by omega) (by omega) (by omega), hx, hy, h2]

/-! ## Windows -/

theorem mapM_some {α β : Type} {f : α → Option β} : ∀ {xs : List α}, (∀ x ∈ xs, (f x).isSome = true) →
    ∃ ys, xs.mapM f = some ys ∧ ys.length = xs.length ∧ ∀ (k : Nat) (x : α), xs[k]? = some x → ys[k]? = f x
  | [], _ => ⟨[], rfl, rfl, by simp⟩
  | x :: xs, h => by
    obtain ⟨y, hy⟩ := Option.isSome_iff_exists.1 (h x (by simp))
    obtain ⟨ys, h1, h2, h3⟩ := mapM_some (xs := xs) fun x hx => h x (by simp [hx])
    refine ⟨y :: ys, by simp [List.mapM_cons, hy, h1], by simp [h2], fun k x' hk => ?_⟩
    cases k with
    | zero => simp only [List.getElem?_cons_zero, Option.some.injEq] at hk ⊢; rw [← hk, hy]
    | succ k => simp only [List.getElem?_cons_succ] at hk ⊢; exact h3 k x' hk

/-- A region inside the costmap can be copied, and its elements are those of the costmap. -/
theorem region_get {c : Costmap2D K} (h : c.costs.length = c.sizeX * c.sizeY) {x y nx ny : Nat} (hx : x + nx ≤ c.sizeX)
    (hy : y + ny ≤ c.sizeY) : ∃ d, c.region x y nx ny = some d ∧ d.length = nx * ny ∧
      ∀ a b : Nat, a < nx → b < ny → d[b * nx + a]? = c.costs[(y + b) * c.sizeX + (x + a)]? := by
  have lt : ∀ a b : Nat, a < nx → b < ny → (y + b) * c.sizeX + (x + a) < c.sizeX * c.sizeY := by
    intro a b ha hb
    have : (y + b + 1) * c.sizeX ≤ c.sizeY * c.sizeX := Nat.mul_le_mul_right _ (by omega)
    rw [Nat.add_mul, Nat.one_mul, Nat.mul_comm c.sizeY] at this
    omega
  obtain ⟨d, h1, h2, h3⟩ := mapM_some (f := fun k => c.costs[(y + k / nx) * c.sizeX + (x + k % nx)]?)
    (xs := List.range (nx * ny)) (by
      intro k hk
      rw [List.mem_range] at hk
      have hnx : 0 < nx := Nat.pos_of_ne_zero (by rintro rfl; simp at hk)
      have := lt (k % nx) (k / nx) (Nat.mod_lt _ hnx) (Nat.div_lt_of_lt_mul hk)
      simp only [List.getElem?_eq_getElem (h ▸ this), Option.isSome_some])
  refine ⟨d, h1, by simpa using h2, fun a b ha hb => ?_⟩
  have hk : b * nx + a < nx * ny := by
    have : (b + 1) * nx ≤ ny * nx := Nat.mul_le_mul_right _ (by omega)
    rw [Nat.add_mul, Nat.one_mul, Nat.mul_comm ny] at this
    omega
  rw [h3 (b * nx + a) (b * nx + a) (by rw [List.getElem?_range hk])]
  have e1 : (b * nx + a) / nx = b := by
    rw [Nat.add_comm, Nat.add_mul_div_right _ _ (by omega), Nat.div_eq_of_lt ha, Nat.zero_add]
  have e2 : (b * nx + a) % nx = a := by
    rw [Nat.add_comm, Nat.add_mul_mod_self_right, Nat.mod_eq_of_lt ha]
  rw [e1, e2]

/-- A position in a known cell of the costmap. -/
theorem worldToMap_some {c : Costmap2D K} (hr : 0 < c.resolution) {p : Vec K} {x y : Nat} (hx : x < c.sizeX) (hy : y < c.sizeY)
    (h1 : c.origin.x + x * c.resolution ≤ p.x) (h2 : p.x < c.origin.x + (x + 1) * c.resolution)
    (h3 : c.origin.y + y * c.resolution ≤ p.y) (h4 : p.y < c.origin.y + (y + 1) * c.resolution) :
    c.worldToMap p = some (x, y) := by
  have ax : ∀ {q o : K} {k : Nat}, o + k * c.resolution ≤ q → q < o + (k + 1) * c.resolution →
      ¬ q < o ∧ (truncToInt ((q - o) / c.resolution)).toNat = k := by
    intro q o k h h'
    have k0 : (0 : K) ≤ k * c.resolution := mul_nonneg (Nat.cast_nonneg _) hr.le
    have h0 : 0 ≤ (q - o) / c.resolution := div_nonneg (by linarith) hr.le
    refine ⟨by linarith, ?_⟩
    unfold truncToInt
    rw [if_pos h0]
    have : ⌊(q - o) / c.resolution⌋ = (k : Int) := by
      rw [floor_div_eq_iff hr]
      push_cast
      constructor <;> linarith
    rw [this]; rfl
  obtain ⟨a1, a2⟩ := ax h1 h2
  obtain ⟨b1, b2⟩ := ax h3 h4
  unfold Costmap2D.worldToMap
  rw [if_neg (by simp only [a1, b1, or_self, not_false_eq_true]), a2, b2, if_pos ⟨hx, hy⟩]

/-- A position beyond the costmap. -/
theorem worldToMap_none {c : Costmap2D K} (hr : 0 < c.resolution) {p : Vec K}
    (h : p.x < c.origin.x ∨ p.y < c.origin.y ∨ c.origin.x + c.sizeX * c.resolution ≤ p.x ∨
      c.origin.y + c.sizeY * c.resolution ≤ p.y) : c.worldToMap p = none := by
  unfold Costmap2D.worldToMap
  by_cases hn : p.x < c.origin.x ∨ p.y < c.origin.y
  · rw [if_pos hn]
  · rw [if_neg hn]
    have ax : ∀ {q o : K} {n : Nat}, o + n * c.resolution ≤ q → ¬ (truncToInt ((q - o) / c.resolution)).toNat < n := by
      intro q o n h' hlt
      have n0 : (0 : K) ≤ n * c.resolution := mul_nonneg (Nat.cast_nonneg _) hr.le
      have h1 : (n : K) ≤ (q - o) / c.resolution := by rw [le_div_iff₀ hr]; linarith
      have h0 : 0 ≤ (q - o) / c.resolution := le_trans (Nat.cast_nonneg _) h1
      unfold truncToInt at hlt
      rw [if_pos h0] at hlt
      have : (n : Int) ≤ ⌊(q - o) / c.resolution⌋ := Int.le_floor.2 (by exact_mod_cast h1)
      omega
    rw [if_neg]
    rintro ⟨g1, g2⟩
    rcases h with h | h | h | h
    · exact hn (.inl h)
    · exact hn (.inr h)
    · exact ax h g1
    · exact ax h g2

/-- The window that starts at the lower left corner of a cell. -/
theorem window_run {c : Costmap2D K} (h : c.Ok) {x y nx ny : Nat} (hx : x + nx < c.sizeX) (hy : y + ny < c.sizeY) {o s : Vec K}
    (ho : o = ⟨c.origin.x + x * c.resolution, c.origin.y + y * c.resolution⟩)
    (hs : s = ⟨nx * c.resolution, ny * c.resolution⟩) :
    ∃ w, c.window o s = .ok (some w) ∧ w.sizeX = nx ∧ w.sizeY = ny ∧ w.resolution = c.resolution ∧ w.origin = o ∧
      w.costs.length = nx * ny ∧
      ∀ p v, w.costAt p = some v → c.costAt p = some v := by
  have r := h.res
  subst ho hs
  have e1 : c.worldToMap ⟨c.origin.x + x * c.resolution, c.origin.y + y * c.resolution⟩ = some (x, y) :=
    worldToMap_some r (by omega) (by omega) (le_refl _) (by simp only; linarith) (le_refl _) (by simp only; linarith)
  have e2 : c.worldToMap ⟨c.origin.x + x * c.resolution + nx * c.resolution,
      c.origin.y + y * c.resolution + ny * c.resolution⟩ = some (x + nx, y + ny) :=
    worldToMap_some r hx hy (by push_cast; linarith) (by push_cast; linarith)
      (by push_cast; linarith) (by push_cast; linarith)
  obtain ⟨d, d1, d2, d3⟩ := region_get h.costs (x := x) (y := y) (nx := nx) (ny := ny) (by omega) (by omega)
  refine ⟨⟨nx, ny, c.resolution, ⟨c.origin.x + x * c.resolution, c.origin.y + y * c.resolution⟩, d⟩, ?_, rfl, rfl, rfl, rfl,
    d2, ?_⟩
  · simp only [Costmap2D.window, e1, e2, show x + nx - x = nx by omega, show y + ny - y = ny by omega, d1, Res.ofOption,
      Res.bind_ok]
  · intro p v hv
    unfold Costmap2D.costAt at hv
    simp only at hv
    split at hv
    · rename_i hc
      obtain ⟨c1, c2, c3, c4⟩ := hc
      have fl : ∀ (q o : K) (k : Nat), ⌊(q - o) / c.resolution⌋ = ⌊(q - (o + k * c.resolution)) / c.resolution⌋ + k := by
        intro q o k
        rw [← Int.floor_add_natCast]
        congr 1
        field_simp
        ring
      generalize hcol : ⌊(p.x - (c.origin.x + x * c.resolution)) / c.resolution⌋ = col at hv c1 c2
      generalize hrow : ⌊(p.y - (c.origin.y + y * c.resolution)) / c.resolution⌋ = row at hv c3 c4
      rw [Costmap2D.costAt_eq (col := col + x) (row := row + y) (by rw [fl p.x c.origin.x x, hcol])
        (by rw [fl p.y c.origin.y y, hrow]) (by omega) (by omega) (by omega) (by omega), ← hv]
      obtain ⟨a, rfl⟩ := Int.eq_ofNat_of_zero_le c1
      obtain ⟨b, rfl⟩ := Int.eq_ofNat_of_zero_le c3
      have := d3 a b (by omega) (by omega)
      rw [show ((b : Int) * nx + a).toNat = b * nx + a by
        rw [show ((b : Int) * nx + a) = ((b * nx + a : Nat) : Int) by push_cast; rfl]; rfl, this]
      congr 1
      rw [show ((b : Int) + y) * c.sizeX + (a + x) = (((y + b) * c.sizeX + (x + a) : Nat) : Int) by push_cast; ring]
      rfl
    · cases hv

/-! ## The window's place -/

/-- The window is centred on the robot up to half a cell. -/
theorem windowCentre_near {len p o r : K} (hr : 0 < r) : |windowCentre len p o r - p| ≤ r / 2 := by
  rw [abs_le]
  unfold windowCentre
  split
  · have h1 := Int.floor_le ((p - o) / r)
    have h2 := Int.lt_floor_add_one ((p - o) / r)
    rw [le_div_iff₀ hr] at h1
    rw [div_lt_iff₀ hr] at h2
    constructor <;> linarith
  · have key : ∀ x : K, |(roundHalfAway x : K) - x| ≤ 1 / 2 := by
      intro x
      rw [abs_le]
      unfold roundHalfAway
      split
      · have := Int.floor_le (x + 1 / 2)
        have := Int.lt_floor_add_one (x + 1 / 2)
        constructor <;> linarith
      · have := Int.floor_le (-x + 1 / 2)
        have := Int.lt_floor_add_one (-x + 1 / 2)
        push_cast
        constructor <;> linarith
    obtain ⟨h1, h2⟩ := abs_le.1 (key ((p - o) / r))
    have e : (p - o) / r * r = p - o := div_mul_cancel₀ _ hr.ne'
    have g1 := mul_le_mul_of_nonneg_right h1 hr.le
    have g2 := mul_le_mul_of_nonneg_right h2 hr.le
    rw [sub_mul, e] at g1 g2
    constructor <;> linarith

/-- For a whole number of cells the window starts on a border between cells. -/
theorem windowCentre_aligned {p o r : K} (hr : 0 < r) (n : Nat) :
    ∃ k : Int, windowCentre (n * r) p o r - 1 / 2 * (n * r) = o + k * r := by
  have ht : truncToInt ((n : K) * r / r) = n := by
    rw [mul_div_cancel_right₀ _ hr.ne']
    unfold truncToInt
    rw [if_pos (Nat.cast_nonneg n)]
    exact Int.floor_natCast n
  unfold windowCentre
  rw [ht]
  split
  · rename_i h
    obtain ⟨j, hj⟩ : ∃ j : Int, (n : Int) = 2 * j + 1 := ⟨n / 2, by omega⟩
    refine ⟨⌊(p - o) / r⌋ - j, ?_⟩
    have : (n : K) = 2 * j + 1 := by exact_mod_cast congrArg (Int.cast (R := K)) hj
    rw [this]; push_cast; ring
  · rename_i h
    obtain ⟨j, hj⟩ : ∃ j : Int, (n : Int) = 2 * j := ⟨n / 2, by omega⟩
    refine ⟨roundHalfAway ((p - o) / r) - j, ?_⟩
    have : (n : K) = 2 * j := by exact_mod_cast congrArg (Int.cast (R := K)) hj
    rw [this]; push_cast; ring

/-- The map after its geometry was set. -/
theorem setGeometry_whole {r : K} (hr : 0 < r) {nx ny : Nat} (hx : 0 < nx) (hy : 0 < ny) (p : Vec K) {m : CostMap K}
    (hc : m.Coherent) : ∃ m', setGeometry ⟨nx * r, ny * r⟩ r p m = (.ok (), m') ∧ m'.Coherent ∧ m'.Geo ∧ m'.startIndex = 0 ∧
      m'.size = ⟨nx, ny⟩ ∧ m'.resolution = r ∧ m'.position = p ∧ m'.length = ⟨nx * r, ny * r⟩ ∧ m'.layers = m.layers ∧
      (∀ l, m'.exists l = m.exists l) ∧ SameMeta m m' := by
  have px : (0 : K) < nx := by exact_mod_cast hx
  have py : (0 : K) < ny := by exact_mod_cast hy
  have e := setGeometry_run (len := ⟨(nx : K) * r, (ny : K) * r⟩) p (mul_pos px hr) (mul_pos py hr) hr m
  have c := setGeometry_coherent ⟨(nx : K) * r, (ny : K) * r⟩ r p m hc
  have rx : roundHalfAway ((nx : K) * r / r) = nx := by
    rw [mul_div_cancel_right₀ _ hr.ne']
    exact_mod_cast roundHalfAway_intCast (K := K) (nx : Int) (by omega)
  have ry : roundHalfAway ((ny : K) * r / r) = ny := by
    rw [mul_div_cancel_right₀ _ hr.ne']
    exact_mod_cast roundHalfAway_intCast (K := K) (ny : Int) (by omega)
  simp only [rx, ry] at e
  rw [e] at c
  have hx' : (0 : Int) < nx := by exact_mod_cast hx
  have hy' : (0 : Int) < ny := by exact_mod_cast hy
  refine ⟨_, e, c, ⟨hr, hx', hy', rfl, rfl, ?_⟩, rfl, rfl, rfl, rfl, ?_, rfl, ?_, ⟨rfl, rfl, rfl⟩⟩
  · exact ⟨le_refl _, hx', le_refl _, hy'⟩
  · simp
  · intro l
    simp only [CostMap.exists, clearAll, resize, Option.isSome_map]

end CostMapModel

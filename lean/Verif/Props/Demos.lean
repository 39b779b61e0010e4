import Verif.Lemmas.Demos
import Verif.Props.Costmap2D

/-!
# Property C82: the demo costmaps
-/

namespace CostMapModel
open CostMap Costmap2D
variable {K : Type} [Field K] [LinearOrder K] [IsStrictOrderedRing K] [FloorRing K]

/-- C82. Filling a costmap with at least two columns succeeds, touches nothing but the costs, and leaves stripes: `NO_INFORMATION`
in the last column, `LETHAL_OBSTACLE` in the one before, and in the others a cost of at most 252 that never decreases from
column to column: the fraction `(x + 1) / columns` of 253 rounded down, one less where that is a whole number and the double comes
out below it. -/
theorem C82_fill {rd : K → K} (hrd : DoublePrecision rd) {c : Costmap2D K} (hl : c.costs.length = c.sizeX * c.sizeY)
    (hs : c.sizeX * c.sizeY < 2 ^ 32) (hx : 2 ≤ c.sizeX) :
    ∃ c', fill rd c = (.ok (), c') ∧ c'.sizeX = c.sizeX ∧ c'.sizeY = c.sizeY ∧ c'.resolution = c.resolution ∧
      c'.origin = c.origin ∧ c'.costs.length = c.costs.length ∧ c'.Striped ∧ ∀ y < c.sizeY,
        c'.cellCost (c.sizeX - 1) y = some NO_INFORMATION ∧ c'.cellCost (c.sizeX - 2) y = some LETHAL_OBSTACLE ∧
        (∀ x, x + 2 < c.sizeX → ∃ v, c'.cellCost x y = some v ∧ v ≤ 252 ∧
          (v.toNat = 253 * (x + 1) / c.sizeX ∨ (c.sizeX ∣ 253 * (x + 1) ∧ v.toNat + 1 = 253 * (x + 1) / c.sizeX))) ∧
        ∀ x x' v v', x ≤ x' → x' + 2 < c.sizeX → c'.cellCost x y = some v → c'.cellCost x' y = some v' → v ≤ v' := by
  obtain ⟨c', h1, ⟨e1, e2, e3, e4, e5⟩, h2⟩ := fill_ok hrd hl hs hx
  have hcell : ∀ x y, x < c.sizeX → y < c.sizeY → c'.cellCost x y = some (column rd c.sizeX x) := by
    intro x y hx' hy'
    unfold cellCost
    rw [e1, e2, if_pos ⟨hx', hy'⟩, h2 x y hx' hy']
  refine ⟨c', h1, e1, e2, e3, e4, e5, fun x y y' hy hy' => ?_, fun y hy => ?_⟩
  · rw [e2] at hy hy'
    by_cases hx' : x < c.sizeX
    · rw [hcell x y hx' hy, hcell x y' hx' hy']
    · unfold cellCost
      rw [e1, if_neg (by omega), if_neg (by omega)]
  have hn' : c.sizeX < 2 ^ 32 := by
    have : c.sizeX * 1 ≤ c.sizeX * c.sizeY := Nat.mul_le_mul_left _ (by omega)
    omega
  have hcol : ∀ x, x + 2 < c.sizeX → (column rd c.sizeX x).toNat = height rd c.sizeX x := by
    intro x hx'
    unfold column
    rw [if_pos hx', UInt8.toNat_ofNat', Nat.mod_eq_of_lt]
    have := (height_spec hrd (K := K) hx' hn').2.1
    omega
  refine ⟨?_, ?_, fun x hx' => ⟨_, hcell x y (by omega) hy, ?_, ?_⟩, fun x x' v v' hxx hx' hv hv' => ?_⟩
  · rw [hcell _ y (by omega) hy]
    unfold column
    rw [if_neg (by omega), if_neg (by omega)]
  · rw [hcell _ y (by omega) hy]
    unfold column
    rw [if_neg (by omega), if_pos (by omega)]
  · rw [UInt8.le_iff_toNat_le, hcol x hx']
    exact (height_spec hrd (K := K) hx' hn').2.1
  · rw [hcol x hx']
    exact (height_spec hrd (K := K) hx' hn').1
  · rw [hcell x y (by omega) hy, Option.some.injEq] at hv
    rw [hcell x' y (by omega) hy, Option.some.injEq] at hv'
    rw [← hv, ← hv', UInt8.le_iff_toNat_le, hcol x (by omega), hcol x' hx']
    exact height_mono hrd hxx hx' hn'

/-- The stripes in terms of their heights. -/
theorem increasing_iff {rd : K → K} (hrd : DoublePrecision rd) {c : Costmap2D K} (hl : c.costs.length = c.sizeX * c.sizeY)
    (hs : c.sizeX * c.sizeY < 2 ^ 32) (hx : 2 ≤ c.sizeX) (hy : 0 < c.sizeY) :
    (fill rd c).2.Increasing ↔ ∀ x x', x < x' → x' + 2 < c.sizeX → height rd c.sizeX x < height rd c.sizeX x' := by
  obtain ⟨c', h1, ⟨e1, e2, -⟩, h2⟩ := fill_ok hrd hl hs hx
  have hn' : c.sizeX < 2 ^ 32 := by
    have : c.sizeX * 1 ≤ c.sizeX * c.sizeY := Nat.mul_le_mul_left _ (by omega)
    omega
  rw [h1]
  have hcell : ∀ x y, x < c.sizeX → y < c.sizeY → c'.cellCost x y = some (column rd c.sizeX x) := by
    intro x y hx' hy'
    unfold cellCost
    rw [e1, e2, if_pos ⟨hx', hy'⟩, h2 x y hx' hy']
  have hcol : ∀ x, x + 2 < c.sizeX → (column rd c.sizeX x).toNat = height rd c.sizeX x := by
    intro x hx'
    unfold column
    rw [if_pos hx', UInt8.toNat_ofNat', Nat.mod_eq_of_lt]
    have := (height_spec hrd (K := K) hx' hn').2.1
    omega
  constructor
  · intro h x x' hxx hx'
    have := h x x' 0 _ _ hxx (by rw [e1]; exact hx') (hcell x 0 (by omega) hy) (hcell x' 0 (by omega) hy)
    rwa [UInt8.lt_iff_toNat_lt, hcol x (by omega), hcol x' hx'] at this
  · intro h x x' y v v' hxx hx' hv hv'
    rw [e1] at hx'
    have hy' : y < c.sizeY := by
      by_contra hc
      unfold cellCost at hv
      rw [if_neg (by rw [e2]; omega)] at hv
      exact absurd hv (by simp)
    rw [hcell x y (by omega) hy', Option.some.injEq] at hv
    rw [hcell x' y (by omega) hy', Option.some.injEq] at hv'
    rw [← hv, ← hv', UInt8.lt_iff_toNat_lt, hcol x (by omega), hcol x' hx']
    exact h x x' hxx hx'

/-- C82. With at most 252 columns, or 254, every stripe is higher than the one before it. -/
theorem C82_increasing {rd : K → K} (hrd : DoublePrecision rd) {c : Costmap2D K} (hl : c.costs.length = c.sizeX * c.sizeY)
    (hs : c.sizeX * c.sizeY < 2 ^ 32) (hx : 2 ≤ c.sizeX) (hy : 0 < c.sizeY) (hn : c.sizeX ≤ 252 ∨ c.sizeX = 254) :
    (fill rd c).2.Increasing :=
  (increasing_iff hrd hl hs hx hy).mpr fun _ _ hxx hx' => height_strict hrd hxx hx' hn

/-- There is not enough room for 255 columns or more. -/
theorem height_not_strict {rd : K → K} (hrd : DoublePrecision rd) {n : Nat} (hn : 255 ≤ n) (hn' : n < 2 ^ 32)
    (h : ∀ x x', x < x' → x' + 2 < n → height rd n x < height rd n x') : False := by
  have hge : ∀ x, x + 2 < n → x ≤ height rd n x := by
    intro x hx
    induction x with
    | zero => omega
    | succ x ih =>
      have := h x (x + 1) (by omega) hx
      have := ih (by omega)
      omega
  rcases Nat.eq_or_lt_of_le hn with rfl | hlt
  · have h1 := hge 252 (by omega)
    rcases (height_spec hrd (K := K) (by omega : 252 + 2 < 255) hn').1 with h2 | ⟨-, h2⟩ <;> omega
  · have h1 := hge 253 (by omega)
    have h2 := (height_spec hrd (K := K) (by omega : 253 + 2 < n) hn').2.1
    omega

/-- C82. In double, the stripes increase exactly when there are at most 252 columns, or 254: with 253 columns the third and the
fourth have the same cost. -/
theorem C82_increasing_iff {c : Costmap2D ℚ} (hl : c.costs.length = c.sizeX * c.sizeY) (hs : c.sizeX * c.sizeY < 2 ^ 32)
    (hx : 2 ≤ c.sizeX) (hy : 0 < c.sizeY) :
    (fill toDouble c).2.Increasing ↔ c.sizeX ≤ 252 ∨ c.sizeX = 254 := by
  have hn' : c.sizeX < 2 ^ 32 := by
    have : c.sizeX * 1 ≤ c.sizeX * c.sizeY := Nat.mul_le_mul_left _ (by omega)
    omega
  rw [increasing_iff toDouble_precision hl hs hx hy]
  refine ⟨fun h => ?_, fun hn _ _ hxx hx' => height_strict toDouble_precision hxx hx' hn⟩
  by_contra hc
  by_cases h3 : c.sizeX = 253
  · have := h 2 3 (by omega) (by omega)
    rw [h3] at this
    revert this
    decide +kernel
  · exact height_not_strict toDouble_precision (by omega) hn' h

/-- C82. Without rounding 253 columns would do as well. -/
theorem C82_increasing_iff_exact {c : Costmap2D ℚ} (hl : c.costs.length = c.sizeX * c.sizeY) (hs : c.sizeX * c.sizeY < 2 ^ 32)
    (hx : 2 ≤ c.sizeX) (hy : 0 < c.sizeY) : (fill id c).2.Increasing ↔ c.sizeX ≤ 254 := by
  have hid : DoublePrecision (id : ℚ → ℚ) := fun x => by
    simp only [id, sub_self, abs_zero]
    positivity
  have hn' : c.sizeX < 2 ^ 32 := by
    have : c.sizeX * 1 ≤ c.sizeX * c.sizeY := Nat.mul_le_mul_left _ (by omega)
    omega
  rw [increasing_iff hid hl hs hx hy]
  constructor
  · intro h
    by_contra hc
    exact height_not_strict hid (by omega) hn' h
  · intro hn x x' hxx hx'
    by_cases h3 : c.sizeX = 253
    · have key : ∀ k : Nat, height (id : ℚ → ℚ) 253 k = k + 1 := by
        intro k
        unfold height
        have : (id (id (((k + 1 : Nat) : ℚ) / ((253 : Nat) : ℚ)) * 253) : ℚ) = ((k + 1 : Nat) : ℚ) := by
          simp only [id]
          push_cast
          ring
        rw [this, Int.floor_natCast, Int.toNat_natCast]
      rw [h3, key, key]
      omega
    · exact height_strict hid hxx hx' (by omega)

/-- C82 is false of a costmap with fewer than two columns: `dimension - 2` wraps around. -/
theorem C82_too_narrow {rd : K → K} (hrd : DoublePrecision rd) {c : Costmap2D K} (hl : c.costs.length = c.sizeX * c.sizeY)
    (hx : c.sizeX < 2) (hy : 0 < c.sizeY) : (fill rd c).1 = .ub := fill_ub hrd hl hx hy

/-- C82. After conversion to a cost map, every position inside a cell has the cost of the stripe it is in. -/
theorem C82_converted {rd : K → K} (hrd : DoublePrecision rd) {c : Costmap2DROS K} (hc : c.costmap.Ok)
    (hs : c.costmap.sizeX * c.costmap.sizeY < 2 ^ 32) (hx : 2 ≤ c.costmap.sizeX) {m : CostMap K} (hm : m.Coherent) (l : String) :
    ∃ c' m', fill rd c.costmap = (.ok (), c') ∧ fromCostmap2DROS { c with costmap := c' } l m = (.ok true, m') ∧
      m'.size = ⟨c.costmap.sizeX, c.costmap.sizeY⟩ ∧ m'.resolution = c.costmap.resolution ∧
      ∀ (i : Idx) (q p : Vec K), m'.getPosition i = some q → InsideSquare p q m'.resolution → ∃ x : Nat, x < c.costmap.sizeX ∧
        c.costmap.origin.x + x * c.costmap.resolution ≤ p.x ∧ p.x < c.costmap.origin.x + (x + 1) * c.costmap.resolution ∧
        (x + 1 = c.costmap.sizeX → m'.atPosition l p = .ok NO_INFORMATION) ∧
        (x + 2 = c.costmap.sizeX → m'.atPosition l p = .ok LETHAL_OBSTACLE) ∧
        (x + 2 < c.costmap.sizeX → ∃ v, m'.atPosition l p = .ok v ∧ v ≤ 252 ∧
          (v.toNat = 253 * (x + 1) / c.costmap.sizeX ∨
            (c.costmap.sizeX ∣ 253 * (x + 1) ∧ v.toNat + 1 = 253 * (x + 1) / c.costmap.sizeX))) := by
  obtain ⟨c', h1, e1, e2, e3, e4, e5, -, hy⟩ := C82_fill hrd hc.costs hs hx
  have hc' : c'.Ok := ⟨by rw [e3]; exact hc.res, by rw [e1]; exact hc.size_x, by rw [e2]; exact hc.size_y,
    by rw [e1, e2, e5]; exact hc.costs⟩
  obtain ⟨m', g1, -, -, -, g2, g3, -, -, -, g4⟩ := C64_from_ros_costmap (c := { c with costmap := c' }) hc' hm l
  simp only at g2 g3 g4
  refine ⟨c', m', h1, g1, by rw [g3, e1, e2], by rw [g2, e3], fun i q p hq hp => ?_⟩
  obtain ⟨v, hv, hv'⟩ := g4 i q p hq hp
  unfold costAt at hv
  simp only at hv
  rw [e1, e2, e3, e4] at hv
  split at hv
  · next hin =>
    obtain ⟨b1, b2, b3, b4⟩ := hin
    obtain ⟨x, hxe⟩ : ∃ x : Nat, (x : Int) = ⌊(p.x - c.costmap.origin.x) / c.costmap.resolution⌋ := Int.eq_ofNat_of_zero_le b1 |>.imp fun _ h => h.symm
    obtain ⟨y, hye⟩ : ∃ y : Nat, (y : Int) = ⌊(p.y - c.costmap.origin.y) / c.costmap.resolution⌋ := Int.eq_ofNat_of_zero_le b3 |>.imp fun _ h => h.symm
    rw [← hxe] at b2
    rw [← hye] at b4
    rw [← hxe, ← hye, show (((y : Int) * c.costmap.sizeX + x).toNat) = y * c.costmap.sizeX + x by
      rw [← Int.natCast_mul, ← Int.natCast_add, Int.toNat_natCast]] at hv
    have hx' : x < c.costmap.sizeX := by exact_mod_cast b2
    have hy' : y < c.costmap.sizeY := by exact_mod_cast b4
    have hcell : c'.cellCost x y = some v := by
      unfold cellCost
      rw [e1, e2, if_pos ⟨hx', hy'⟩, hv]
    have f1 := Int.floor_le ((p.x - c.costmap.origin.x) / c.costmap.resolution)
    have f2 := Int.lt_floor_add_one ((p.x - c.costmap.origin.x) / c.costmap.resolution)
    rw [← hxe] at f1 f2
    rw [le_div_iff₀ hc.res] at f1
    rw [div_lt_iff₀ hc.res] at f2
    push_cast at f1 f2
    obtain ⟨k1, k2, k3, -⟩ := hy y hy'
    refine ⟨x, hx', by linarith, by linarith, fun h => ?_, fun h => ?_, fun h => ?_⟩
    · rw [show c.costmap.sizeX - 1 = x by omega, hcell, Option.some.injEq] at k1
      rw [hv', k1]
    · rw [show c.costmap.sizeX - 2 = x by omega, hcell, Option.some.injEq] at k2
      rw [hv', k2]
    · obtain ⟨w, w1, w2⟩ := k3 x h
      rw [hcell, Option.some.injEq] at w1
      subst w1
      exact ⟨v, hv', w2⟩
  · exact absurd hv (by simp)

/-- C82. Printing a costmap reads no cost outside of it. -/
theorem C82_print_ok {c : Costmap2D K} (hl : c.costs.length = c.sizeX * c.sizeY) (hs : c.sizeX * c.sizeY < 2 ^ 32) :
    ∃ t, c.text = .ok t := ⟨_, text_eq hl hs⟩

/-- C82. The printed text determines the costs and the size of the costmap (without columns there is no text, whatever the
number of rows). -/
theorem C82_print_injective {c c' : Costmap2D K} (hl : c.costs.length = c.sizeX * c.sizeY) (hs : c.sizeX * c.sizeY < 2 ^ 32)
    (hl' : c'.costs.length = c'.sizeX * c'.sizeY) (hs' : c'.sizeX * c'.sizeY < 2 ^ 32) (h : c.text = c'.text) :
    c.sizeX = c'.sizeX ∧ (0 < c.sizeX → c.sizeY = c'.sizeY) ∧ c.costs = c'.costs := by
  rw [text_eq hl hs, text_eq hl' hs', Res.ok.injEq] at h
  have h1 := lines_inj h
  have hx : c.sizeX = c'.sizeX := by simpa using congrArg List.length h1
  have hline : ∀ i < c.sizeX, c.lineCosts i = c'.lineCosts i := by
    intro i hi
    have := congrArg (fun l => l[i]?) h1
    simpa [List.getElem?_map, List.getElem?_range hi, List.getElem?_range (hx ▸ hi : i < c'.sizeX)] using this
  rcases Nat.eq_zero_or_pos c.sizeX with h0 | h0
  · refine ⟨hx, fun h => by omega, ?_⟩
    rw [List.eq_nil_of_length_eq_zero (by rw [hl, h0]; omega : c.costs.length = 0),
      List.eq_nil_of_length_eq_zero (by rw [hl', ← hx, h0]; omega : c'.costs.length = 0)]
  have hy : c.sizeY = c'.sizeY := by simpa [lineCosts] using congrArg List.length (hline 0 h0)
  refine ⟨hx, fun _ => hy, ?_⟩
  refine List.ext_getElem? fun k => ?_
  by_cases hk : k < c.sizeX * c.sizeY
  · have hi : k % c.sizeX < c.sizeX := Nat.mod_lt _ h0
    have hj : k / c.sizeX < c.sizeY := Nat.div_lt_of_lt_mul hk
    have := congrArg (fun l => l[k / c.sizeX]?) (hline _ hi)
    simp only [lineCosts, List.getElem?_map, List.getElem?_range hj, List.getElem?_range (hy ▸ hj : k / c.sizeX < c'.sizeY),
      Option.map_some, Option.some.injEq] at this
    obtain ⟨v, hv⟩ := cellCost_some hl hi hj
    have hi' : k % c.sizeX < c'.sizeX := by rw [← hx]; exact hi
    have hj' : k / c.sizeX < c'.sizeY := by rw [← hy]; exact hj
    obtain ⟨w, hw⟩ := cellCost_some hl' hi' hj'
    rw [hv, hw] at this
    simp only [Option.getD_some] at this
    subst this
    unfold cellCost at hv hw
    rw [if_pos ⟨hi, hj⟩, Nat.mul_comm, Nat.div_add_mod] at hv
    rw [if_pos ⟨hi', hj'⟩, ← hx, Nat.mul_comm, Nat.div_add_mod] at hw
    rw [hv, hw]
  · rw [List.getElem?_eq_none (by rw [hl]; omega), List.getElem?_eq_none (by rw [hl', ← hx, ← hy]; omega)]

namespace Demo
/-- A costmap of five columns and two rows. -/
def blank : Costmap2D ℚ := ⟨5, 2, 1 / 2, ⟨0, 0⟩, List.replicate 10 0⟩
end Demo

example : (fill toDouble Demo.blank).2.costs = [50, 101, 151, 254, 255, 50, 101, 151, 254, 255] := by decide +kernel
example := C82_fill (K := ℚ) toDouble_precision (c := Demo.blank) (by decide) (by decide) (by decide)
example : (fill toDouble Demo.blank).2.Increasing :=
  (C82_increasing_iff (c := Demo.blank) (by decide) (by decide) (by decide) (by decide)).mpr (by decide)
example : (fill toDouble (⟨1, 1, 1, ⟨0, 0⟩, [0]⟩ : Costmap2D ℚ)).1 = .ub :=
  C82_too_narrow toDouble_precision (by decide) (by decide) (by decide)
example : (fill toDouble Demo.blank).2.text =
    .ok "50 50 \n101 101 \n151 151 \n254 254 \n255 255 \n".toList := by decide +kernel
example : ∃ c' m', fill toDouble Demo.blank = (.ok (), c') ∧
    fromCostmap2DROS ⟨c', "map", none, 0⟩ "obstacle_costs" (CostMap.new []) = (.ok true, m') := by
  obtain ⟨c', m', h1, h2, -⟩ := C82_converted toDouble_precision (c := ⟨Demo.blank, "map", none, 0⟩)
    ⟨by decide +kernel, by decide, by decide, by decide⟩ (by decide) (by decide) (new_coherent (ls := []) (by simp)) "obstacle_costs"
  exact ⟨c', m', h1, h2⟩

end CostMapModel

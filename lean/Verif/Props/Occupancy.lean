import Verif.Lemmas.Occupancy
import Verif.Lemmas.Float
import Verif.Props.Geometry

/-!
# C51, C52: occupancy grids
-/

set_option linter.unusedSectionVars false

namespace CostMapModel
open CostMap
variable {K : Type} [Field K] [LinearOrder K] [IsStrictOrderedRing K] [FloorRing K]

/-- The relative error of rounding to `float`. -/
theorem toFloat_error (x : ℚ) : |toFloat x - x| ≤ |x| / 2 ^ 24 := by
  unfold toFloat
  by_cases h0 : x = 0
  · subst h0; simp [binRound]
  have two : (2 : ℚ) ≠ 0 := by norm_num
  have hn := (binRound_nearest (p := 24) (by norm_num) x).2
  have hd' : (0 : ℚ) < x.den := by exact_mod_cast x.den_pos
  have habs : |x| = (x.num.natAbs : ℚ) / x.den := by
    rw [Nat.cast_natAbs]
    conv_lhs => rw [← Rat.num_div_den x]
    rw [abs_div, abs_of_pos hd']
    push_cast
    rfl
  obtain ⟨e1, e2⟩ := binExponent_spec (Int.natAbs_pos.2 (Rat.num_ne_zero.2 h0)) x.den_pos
  rw [← habs] at e1 e2
  generalize binExponent x.num.natAbs x.den = e at e1 e2
  -- a multiple of `2^(e-23)` within half of it
  have u : (0 : ℚ) < 2 ^ (e - 23) := two_zpow_pos _
  let q : Int := ⌊x / 2 ^ (e - 23) + 1 / 2⌋
  have q1 : (q : ℚ) ≤ x / 2 ^ (e - 23) + 1 / 2 := Int.floor_le _
  have q2 : x / 2 ^ (e - 23) + 1 / 2 < q + 1 := Int.lt_floor_add_one _
  have hclose : |x - q * 2 ^ (e - 23)| ≤ 1 / 2 * 2 ^ (e - 23) := by
    have : x - q * 2 ^ (e - 23) = (x / 2 ^ (e - 23) - q) * 2 ^ (e - 23) := by
      rw [sub_mul, div_mul_cancel₀ _ u.ne']
    rw [this, abs_mul, abs_of_pos u]
    refine mul_le_mul_of_nonneg_right ?_ u.le
    rw [abs_le]; constructor <;> linarith
  have hxu : |x| / 2 ^ (e - 23) < 2 ^ 24 := by
    rw [div_lt_iff₀ u]
    calc |x| < 2 ^ (e + 1) := e2
      _ = 2 ^ (24 : Int) * 2 ^ (e - 23) := by rw [← zpow_add₀ two]; congr 1; ring
      _ = 2 ^ 24 * 2 ^ (e - 23) := by norm_num
  have hax : |x / 2 ^ (e - 23)| < 2 ^ 24 := by rw [abs_div, abs_of_pos u]; exact hxu
  have hq : |q| ≤ 2 ^ 24 := by
    rw [abs_lt] at hax
    have a1 : (q : ℚ) < 2 ^ 24 + 1 := by linarith [hax.2]
    have a2 : (-(2 ^ 24) - 1 : ℚ) < q := by linarith [hax.1]
    have a1 : q < 2 ^ 24 + 1 := by exact_mod_cast a1
    have a2 : -(2 ^ 24) - 1 < q := by exact_mod_cast a2
    rw [abs_le]; constructor <;> omega
  have hrep : Representable 24 (q * 2 ^ (e - 23)) := by
    rcases lt_or_eq_of_le hq with h | h
    · exact ⟨q, _, h, rfl⟩
    · have : q = 2 ^ 24 ∨ q = -2 ^ 24 := by
        rcases abs_choice q with h' | h' <;> rw [h'] at h
        · exact .inl h
        · right; omega
      rcases this with h | h
      · refine ⟨1, e + 1, by norm_num, ?_⟩
        rw [h, show e + 1 = 24 + (e - 23) by ring, zpow_add₀ two]; norm_num
      · refine ⟨-1, e + 1, by norm_num, ?_⟩
        rw [h, show e + 1 = 24 + (e - 23) by ring, zpow_add₀ two]; norm_num
  rw [abs_sub_comm]
  refine (hn _ hrep).trans (hclose.trans ?_)
  calc 1 / 2 * (2 : ℚ) ^ (e - 23) = 2 ^ e / 2 ^ 24 := by
        rw [zpow_sub₀ two]; norm_num; ring
    _ ≤ |x| / 2 ^ 24 := div_le_div_of_nonneg_right e1 (by norm_num)

/-- The value of an occupancy grid at a position in a known row and column. -/
theorem valueAt_eq {g : OccupancyGrid K} {p : Vec K} {col row : Int} (hx : ⌊(p.x - g.origin.x) / g.resolution⌋ = col)
    (hy : ⌊(p.y - g.origin.y) / g.resolution⌋ = row) (c0 : 0 ≤ col) (c1 : col < g.width) (r0 : 0 ≤ row)
    (r1 : row < g.height) : g.valueAt p = g.data[(row * g.width + col).toNat]? := by
  unfold OccupancyGrid.valueAt
  simp only [hx, hy]
  rw [if_pos ⟨c0, c1, r0, r1⟩]

/-- One axis of the placement, for a position strictly inside its cell and the exact resolution. -/
theorem axis_inside {pos len r p : K} {n k : Int} (hr : 0 < r) (hl : len = n * r)
    (h1 : pos + len / 2 - r / 2 - r * k - r / 2 < p) (h2 : p < pos + len / 2 - r / 2 - r * k + r / 2) :
    ⌊(p - (pos - 1 / 2 * len)) / r⌋ = n - 1 - k := by
  rw [floor_div_eq_iff hr]
  subst hl
  push_cast
  constructor <;> nlinarith

/-- One axis of the placement, for a cell centre and a rounded resolution. -/
theorem axis_rounded {pos len r rr : K} {n k : Int} (hr : 0 < r) (hl : len = n * r) (k0 : 0 ≤ k) (k1 : k < n)
    (hn : n < 2 ^ 23) (he : |rr - r| ≤ r / 2 ^ 24) :
    ⌊(pos + len / 2 - r / 2 - r * k - (pos - 1 / 2 * len)) / rr⌋ = n - 1 - k := by
  rw [abs_le] at he
  have hrr : 0 < rr := by
    have : r / 2 ^ 24 < r := div_lt_self hr (by norm_num)
    linarith [he.1]
  rw [floor_div_eq_iff hrr]
  subst hl
  have e : pos + ↑n * r / 2 - r / 2 - r * ↑k - (pos - 1 / 2 * (↑n * r)) = ((n - 1 - k : Int) : K) * r + r / 2 := by
    push_cast; ring
  rw [e]
  generalize hj : n - 1 - k = j
  have j0 : (0 : K) ≤ j := by exact_mod_cast (show 0 ≤ j by omega)
  have j1 : (j : K) + 1 ≤ 2 ^ 23 := by
    have : j + 1 ≤ 2 ^ 23 := by omega
    exact_mod_cast this
  have p24 : (0 : K) < 2 ^ 24 := by positivity
  have b1 : (j : K) * (rr - r) ≤ j * (r / 2 ^ 24) := mul_le_mul_of_nonneg_left he.2 j0
  have b2 : ((j : K) + 1) * (r - rr) ≤ (j + 1) * (r / 2 ^ 24) := mul_le_mul_of_nonneg_left (by linarith [he.1]) (by linarith)
  have c0 : ((j : K) + 1) * (r / 2 ^ 24) ≤ r / 2 := by
    have : ((j : K) + 1) * (r / 2 ^ 24) ≤ 2 ^ 23 * (r / 2 ^ 24) := mul_le_mul_of_nonneg_right j1 (by positivity)
    refine this.trans (le_of_eq ?_)
    rw [show (2 : K) ^ 24 = 2 ^ 23 * 2 by norm_num]
    field_simp
  have c1 : (j : K) * (r / 2 ^ 24) ≤ (j + 1) * (r / 2 ^ 24) := mul_le_mul_of_nonneg_right (by linarith) (by positivity)
  constructor
  · nlinarith
  · by_contra hcon
    push Not at hcon
    -- equality would force the largest error with the largest column
    have h3 : ((j : K) + 1) * (r - rr) ≥ r / 2 := by nlinarith
    have : ((j : K) + 1) * (r / 2 ^ 24) = r / 2 := le_antisymm c0 (h3.le.trans b2)
    have j2 : (j : K) + 1 < 2 ^ 23 := by
      have : j + 1 < 2 ^ 23 := by omega
      exact_mod_cast this
    have : ((j : K) + 1) * (r / 2 ^ 24) < 2 ^ 23 * (r / 2 ^ 24) := mul_lt_mul_of_pos_right j2 (by positivity)
    have e2 : (2 : K) ^ 23 * (r / 2 ^ 24) = r / 2 := by
      rw [show (2 : K) ^ 24 = 2 ^ 23 * 2 by norm_num]
      field_simp
    linarith

/-- The cell centre of a map whose buffer starts at zero. -/
theorem getPosition_start_zero {m : CostMap K} (hs : m.startIndex = 0) {i : Idx} {c : Vec K}
    (hp : m.getPosition i = some c) : i.In m.size ∧ c = m.center i := by
  have hi : i.In m.size := by
    by_contra hn; rw [getPosition_none hn] at hp; cases hp
  rw [getPosition_eq hi, hs] at hp
  cases hp
  exact ⟨hi, by simp [unwrapIdx]⟩

/-- C51, for maps whose buffer starts at index zero and a resolution that is a `float`: the occupancy value at any
position inside a cell is the translation of the cost at that position. On the border between two cells the two
conventions differ (cells of the cost map are closed above, those of an occupancy grid below), so borders are left out. The
full statement includes moved maps; see `C51_false`. -/
theorem C51_placed_by_position_partial (rf : K → K) {m : CostMap K} (hg : m.Geo) (hc : m.Coherent)
    (hs : m.startIndex = 0) {l : String} (hl : m.exists l = true) (ht : m.timestamp < 2 ^ 32 * 1000000000)
    (hrf : rf m.resolution = m.resolution) (old : List Int) :
    ∃ g, m.toOccupancyGrid rf l old = .ok g ∧ ∀ (i : Idx) (c p : Vec K), m.getPosition i = some c →
      InsideSquare p c m.resolution → ∃ v, m.atPosition l p = .ok v ∧ g.valueAt p = some (occupancyOf v) := by
  obtain ⟨g, g0, -, -, g3, g4, g5, g6, -, g8⟩ := toOccupancyGrid_run rf hg hc hl ht old
  refine ⟨g, g0, fun i c p hp hin => ?_⟩
  obtain ⟨hi, rfl⟩ := getPosition_start_zero hs hp
  obtain ⟨⟨a1, a2⟩, b1, b2⟩ := hin
  have hcell : m.cellU p = i := (cellU_eq_iff hg p i).2 ⟨⟨a1, a2.le⟩, b1, b2.le⟩
  have hins : m.isInside p = true := by rw [isInside_iff hg, hcell]; exact hi
  have hidx : (m.getIndex p).1 = i := by
    rw [getIndex_fst hg hins, hcell, hs]; simp [bufferIdx]
  obtain ⟨v, hv, hd⟩ := g8 i hi
  refine ⟨v, ?_, ?_⟩
  · rw [atPosition_inside hins, hidx]; exact hv
  · rw [valueAt_eq (col := m.size.x - 1 - i.x) (row := m.size.y - 1 - i.y)
      (by rw [g3, g6, hrf]; exact axis_inside hg.res_pos hg.len_x a1 a2)
      (by rw [g3, g6, hrf]; exact axis_inside hg.res_pos hg.len_y b1 b2)
      (by have := hi.2.1; omega) (by rw [g4]; have := hi.1; omega) (by have := hi.2.2.2; omega)
      (by rw [g5]; have := hi.2.2.1; omega), g4, hd]

/-- C51 with the rounding of the resolution to `float` (a relative error of at most 2^-24, see `toFloat_error`): at every
cell centre of a map of fewer than 2^23 cells a side. -/
theorem C51_placed_by_centre_partial (rf : K → K) {m : CostMap K} (hg : m.Geo) (hc : m.Coherent)
    (hs : m.startIndex = 0) {l : String} (hl : m.exists l = true) (ht : m.timestamp < 2 ^ 32 * 1000000000)
    (hrf : |rf m.resolution - m.resolution| ≤ m.resolution / 2 ^ 24) (hx : m.size.x < 2 ^ 23) (hy : m.size.y < 2 ^ 23)
    (old : List Int) :
    ∃ g, m.toOccupancyGrid rf l old = .ok g ∧ ∀ (i : Idx) (c : Vec K), m.getPosition i = some c →
      ∃ v, m.at l i = .ok v ∧ g.valueAt c = some (occupancyOf v) := by
  obtain ⟨g, g0, -, -, g3, g4, g5, g6, -, g8⟩ := toOccupancyGrid_run rf hg hc hl ht old
  refine ⟨g, g0, fun i c hp => ?_⟩
  obtain ⟨hi, rfl⟩ := getPosition_start_zero hs hp
  obtain ⟨v, hv, hd⟩ := g8 i hi
  refine ⟨v, hv, ?_⟩
  obtain ⟨i1, i2, i3, i4⟩ := hi
  rw [valueAt_eq (col := m.size.x - 1 - i.x) (row := m.size.y - 1 - i.y)
    (by rw [g3, g6]; exact axis_rounded hg.res_pos hg.len_x i1 i2 hx hrf)
    (by rw [g3, g6]; exact axis_rounded hg.res_pos hg.len_y i3 i4 hy hrf)
    (by omega) (by rw [g4]; omega) (by omega) (by rw [g5]; omega), g4, hd]

/-- Maps that agree on everything but the start index give the same occupancy grid, whatever the message held before. -/
theorem toOccupancyGrid_congr (rf : K → K) {m : CostMap K} (hg : m.Geo) (hc : m.Coherent) {s : Idx} (hs : s.In m.size)
    {l : String} (hl : m.exists l = true) (ht : m.timestamp < 2 ^ 32 * 1000000000) (old old' : List Int) :
    (m.setStartIndex s).toOccupancyGrid rf l old' = m.toOccupancyGrid rf l old := by
  have ext : ∀ {d d' : List Int}, (d.length : Int) = m.size.x * m.size.y → (d'.length : Int) = m.size.x * m.size.y →
      (∀ i : Idx, i.In m.size → ∃ c, m.at l i = .ok c ∧
        d[((m.size.y - 1 - i.y) * m.size.x + (m.size.x - 1 - i.x)).toNat]? = some (occupancyOf c)) →
      (∀ i : Idx, i.In m.size → ∃ c, m.at l i = .ok c ∧
        d'[((m.size.y - 1 - i.y) * m.size.x + (m.size.x - 1 - i.x)).toNat]? = some (occupancyOf c)) → d = d' := by
    intro d d' h1 h2 h3 h4
    apply List.ext_getElem?
    intro k
    by_cases hk : (k : Int) < m.size.x * m.size.y
    · have q1 := Int.emod_nonneg (k : Int) hg.size_x.ne'
      have q2 := Int.emod_lt_of_pos (k : Int) hg.size_x
      have q3 : 0 ≤ (k : Int) / m.size.x := Int.ediv_nonneg (by omega) hg.size_x.le
      have q4 : (k : Int) / m.size.x < m.size.y := Int.ediv_lt_of_lt_mul hg.size_x (by rw [mul_comm]; exact hk)
      have e : (k : Int) / m.size.x * m.size.x + (k : Int) % m.size.x = k := Int.ediv_mul_add_emod _ _
      have hi : Idx.In ⟨m.size.x - 1 - (k : Int) % m.size.x, m.size.y - 1 - (k : Int) / m.size.x⟩ m.size := by
        refine ⟨?_, ?_, ?_, ?_⟩ <;> simp only <;> omega
      obtain ⟨c, c1, c2⟩ := h3 _ hi
      obtain ⟨c', c1', c2'⟩ := h4 _ hi
      have e' : ((m.size.y - 1 - (m.size.y - 1 - (k : Int) / m.size.x)) * m.size.x +
          (m.size.x - 1 - (m.size.x - 1 - (k : Int) % m.size.x))).toNat = k := by
        rw [show m.size.y - 1 - (m.size.y - 1 - (k : Int) / m.size.x) = (k : Int) / m.size.x by ring,
          show m.size.x - 1 - (m.size.x - 1 - (k : Int) % m.size.x) = (k : Int) % m.size.x by ring, e]
        rfl
      rw [e'] at c2 c2'
      rw [c1] at c1'; cases c1'
      rw [c2, c2']
    · rw [List.getElem?_eq_none (by omega), List.getElem?_eq_none (by omega)]
  have hg' : (m.setStartIndex s).Geo := ⟨hg.res_pos, hg.size_x, hg.size_y, hg.len_x, hg.len_y, hs⟩
  have hc' : (m.setStartIndex s).Coherent := ⟨hc.nodup, hc.mem_iff, hc.dims⟩
  obtain ⟨g, g0, g1, g2, g3, g4, g5, g6, g7, g8⟩ := toOccupancyGrid_run rf hg hc hl ht old
  obtain ⟨g', g0', g1', g2', g3', g4', g5', g6', g7', g8'⟩ := toOccupancyGrid_run rf hg' hc' hl ht old'
  rw [g0', g0]
  congr 1
  have hd : g'.data = g.data := ext g7' g7 g8' g8
  have hst : g'.stampSec = g.stampSec ∧ g'.stampNsec = g.stampNsec := by
    unfold toOccupancyGrid at g0 g0'
    obtain ⟨t, n, e1, -⟩ := stampOf_ok ht
    rw [show (m.setStartIndex s).timestamp = m.timestamp from rfl] at g0'
    rw [e1, Res.bind_ok] at g0 g0'
    dsimp only at g0 g0'
    split at g0 <;> split at g0' <;> cases g0 <;> cases g0'
    exact ⟨rfl, rfl⟩
  cases g; cases g'
  simp only at *
  obtain ⟨rfl, rfl⟩ := hst
  subst hd g1 g3 g4 g5 g6 g1' g3' g4' g5' g6'
  rfl

/-- C51. Frame, time, size and lower left corner are those of the map; every cell has a value. What the message held
before does not matter. -/
theorem C51_header (rf : K → K) {m : CostMap K} (hg : m.Geo) (hc : m.Coherent) {l : String} (hl : m.exists l = true)
    (ht : m.timestamp < 2 ^ 32 * 1000000000) (old : List Int) :
    ∃ g, m.toOccupancyGrid rf l old = .ok g ∧ g.frameId = m.frameId ∧
      g.stampSec.toNat * 1000000000 + g.stampNsec.toNat = m.timestamp ∧ g.width = m.size.x ∧ g.height = m.size.y ∧
      g.resolution = rf m.resolution ∧
      g.origin = ⟨m.position.x - m.length.x / 2, m.position.y - m.length.y / 2⟩ ∧
      (g.data.length : Int) = g.width * g.height ∧ m.toOccupancyGrid rf l [] = .ok g := by
  obtain ⟨g, g0, g1, g2, g3, g4, g5, g6, g7, g8⟩ := toOccupancyGrid_run rf hg hc hl ht old
  refine ⟨g, g0, g1, g2, g4, g5, g3, ?_, by rw [g7, g4, g5], ?_⟩
  · rw [g6]; congr 1 <;> ring
  · rw [← g0]; exact toOccupancyGrid_congr rf hg hc hg.start hl ht old []

/-- C51 on a moved map: the start index has no effect at all. The occupancy grid is that of a map that holds the same
buffer from index zero on. -/
theorem C51_start_index_is_ignored (rf : K → K) {m : CostMap K} (hg : m.Geo) (hc : m.Coherent)
    {l : String} (hl : m.exists l = true) (ht : m.timestamp < 2 ^ 32 * 1000000000) (old : List Int) :
    m.toOccupancyGrid rf l old = (m.setStartIndex 0).toOccupancyGrid rf l old :=
  (toOccupancyGrid_congr rf hg hc ⟨le_refl _, hg.size_x, le_refl _, hg.size_y⟩ hl ht old old).symm

/-- C51 is false for moved maps: in the corner of `Demo.rotated` the occupancy grid shows the value of another cell. -/
theorem C51_false : ¬ ∀ (m : CostMap ℚ) (l : String) (g : OccupancyGrid ℚ) (p : Vec ℚ) (v : Cost), m.Geo → m.Coherent →
    m.toOccupancyGrid id l [] = .ok g → m.atPosition l p = .ok v → g.valueAt p = some (occupancyOf v) := by
  intro h
  have := h Demo.rotated "a"
    (match Demo.rotated.toOccupancyGrid id "a" [] with | .ok g => g | _ => ⟨"", 0, 0, 0, 0, 0, ⟨0, 0⟩, []⟩)
    ⟨2, -1 / 4⟩ 32 Demo.rotated_geo Demo.rotated_coherent
    (by decide +kernel) (by decide +kernel)
  revert this
  decide +kernel

example : ∃ g, Demo.base.toOccupancyGrid id "a" [7] = .ok g ∧ ∀ (i : Idx) (c p : Vec ℚ), Demo.base.getPosition i = some c →
    InsideSquare p c (1 / 2) → ∃ v, Demo.base.atPosition "a" p = .ok v ∧ g.valueAt p = some (occupancyOf v) := by
  have := C51_placed_by_position_partial id Demo.base_geo Demo.base_coherent Demo.base_start (l := "a")
    (by decide +kernel) (by decide +kernel) rfl [7]
  rwa [Demo.base_res] at this
example : ∃ g, Demo.base.toOccupancyGrid toFloat "a" [] = .ok g ∧
    ∀ (i : Idx) (c : Vec ℚ), Demo.base.getPosition i = some c →
      ∃ v, Demo.base.at "a" i = .ok v ∧ g.valueAt c = some (occupancyOf v) :=
  C51_placed_by_centre_partial toFloat Demo.base_geo Demo.base_coherent Demo.base_start (by decide +kernel)
    (by decide +kernel) (by
      have := toFloat_error Demo.base.resolution
      rwa [abs_of_pos Demo.base_geo.res_pos] at this) (by decide +kernel) (by decide +kernel) []
example : ∃ g, Demo.rotated.toOccupancyGrid id "b" [1, 2] = .ok g ∧ g.width = 5 ∧ g.height = 4 := by
  obtain ⟨g, h, -, -, h1, h2, -⟩ := C51_header id Demo.rotated_geo Demo.rotated_coherent (l := "b") (by decide +kernel)
    (by decide +kernel) [1, 2]
  exact ⟨g, h, h1.trans (by decide +kernel), h2.trans (by decide +kernel)⟩

/-- C52. There is one translation of costs to occupancy values, the same for all maps, layers and cells: unknown is -1,
lethal 100, inscribed 99, and the costs up to 252 are mapped monotonically to 0 .. 98, with 0 to 0 and 252 to 98. The element
for cell `i` is the one `i` takes counting rows and columns from the lower left corner. -/
theorem C52_values : ∃ f : Cost → Int,
    f NO_INFORMATION = -1 ∧ f LETHAL_OBSTACLE = 100 ∧ f INSCRIBED_OBSTACLE = 99 ∧ f 0 = 0 ∧ f 252 = 98 ∧
    (∀ c, c ≤ 252 → 0 ≤ f c ∧ f c ≤ 98) ∧ (∀ c c', c ≤ c' → c' ≤ 252 → f c ≤ f c') ∧
    ∀ (rf : K → K) (m : CostMap K) (l : String) (old : List Int), m.Geo → m.Coherent → m.exists l = true →
      m.timestamp < 2 ^ 32 * 1000000000 → ∃ g, m.toOccupancyGrid rf l old = .ok g ∧
        ∀ i : Idx, i.In m.size → ∃ c, m.at l i = .ok c ∧
          g.data[((m.size.y - 1 - i.y) * m.size.x + (m.size.x - 1 - i.x)).toNat]? = some (f c) := by
  refine ⟨occupancyOf, by decide, by decide, by decide, by decide, by decide, ?_, ?_, ?_⟩
  · exact forall_cost (by decide +kernel)
  · intro c c' h h'
    have e : ∀ c : Cost, c ≤ 252 → occupancyOf c = (98 * c.toNat / 252 : Nat) := forall_cost (by decide +kernel)
    rw [e c (UInt8.le_trans h h'), e c' h']
    have := UInt8.le_iff_toNat_le.1 h
    have : 98 * c.toNat / 252 ≤ 98 * c'.toNat / 252 := Nat.div_le_div_right (by omega)
    exact_mod_cast this
  · intro rf m l old hg hc hl ht
    obtain ⟨g, g0, -, -, -, -, -, -, -, g8⟩ := toOccupancyGrid_run rf hg hc hl ht old
    exact ⟨g, g0, g8⟩

/-- C52. A layer that does not exist throws. -/
theorem C52_missing_layer (rf : K → K) {m : CostMap K} (hg : m.Geo) {l : String} (hl : m.exists l = false)
    (ht : m.timestamp < 2 ^ 32 * 1000000000) (old : List Int) : m.toOccupancyGrid rf l old = .thrown .outOfRange := by
  obtain ⟨s, n, e1, -⟩ := stampOf_ok ht
  have hat : ∀ i, m.at l i = .thrown .outOfRange := by
    intro i
    have : m.data l = none := by simpa [CostMap.exists] using hl
    simp [CostMap.at, this]
  obtain ⟨i, xs, hx⟩ : ∃ i xs, m.cells = i :: xs := by
    cases h : m.cells with
    | nil =>
      have := (mem_cells hg.start).2 hg.start
      rw [h] at this; cases this
    | cons i xs => exact ⟨i, xs, rfl⟩
  have key : Act.forIter CostMapIter.ops (m.occupancyCell l (m.size.x * m.size.y).toNat)
      (m.size.x.toNat * m.size.y.toNat + 2) (CostMapIter.new m) (resized old (m.size.x * m.size.y).toNat) =
      (.thrown .outOfRange, resized old (m.size.x * m.size.y).toNat) := by
    refine (Act.forIter_eq _ (costMapIter_visits hg.start clamp1) _ (by rw [List.length_map, rowMajor_length]; omega)
      _).trans ?_
    change Act.forEach _ m.cells _ = _
    rw [hx]
    simp only [Act.forEach, occupancyCell, hat, Act.bind, Act.lift]
  simp only [toOccupancyGrid, e1, Res.bind_ok, key]

example : Demo.rotated.toOccupancyGrid id "zz" [] = .thrown .outOfRange :=
  C52_missing_layer id Demo.rotated_geo (by decide +kernel) (by decide +kernel) []
example : (match Demo.base.toOccupancyGrid id "a" [] with | .ok g => g.valueAt ⟨0, -7 / 4⟩ | _ => none) = some 16 := by
  decide +kernel

end CostMapModel

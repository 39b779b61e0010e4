import Verif.Model.RoundedCostmap2D
import Verif.Spec.RoundedCostmap2D
import Verif.Lemmas.Costmap2D
import Verif.Lemmas.RoundedConversions

/-! # Lemmas on ROS costmaps in floating point -/

set_option linter.unusedSectionVars false

namespace CostMapModel
open CostMap
variable {K : Type} [Field K] [LinearOrder K] [IsStrictOrderedRing K] [FloorRing K]

theorem DoublePrecision.nonneg {rd : K → K} (h : DoublePrecision rd) {x : K} (hx : 0 ≤ x) : 0 ≤ rd x := by
  have := h x
  rw [abs_of_nonneg hx, abs_le] at this
  have : x / 2 ^ 53 ≤ x := div_le_self hx (by norm_num)
  linarith [(h x), (abs_le.1 (h x)).1, abs_of_nonneg hx]

theorem truncToInt_nonneg {x : K} (hx : 0 ≤ x) : truncToInt x = ⌊x⌋ := if_pos hx

/-- The lower left cell that is looked up, and how far it is from the position. -/
theorem lookup_axis {rd : K → K} (hrd : DoublePrecision rd) {q o r : K} (hr : 0 < r) (hq : ¬ q < o) :
    ∃ k : Nat, (truncToInt (rd (rd (q - o) / r))).toNat = k ∧ ∀ N : Nat, k < N →
      -(N * r / 2 ^ 50) ≤ q - (o + k * r) ∧ q - (o + k * r) ≤ r + N * r / 2 ^ 50 := by
  push Not at hq
  have s0 : 0 ≤ q - o := by linarith
  generalize hs : q - o = s at *
  have a0 := hrd.nonneg s0
  have t0 : 0 ≤ rd (rd s / r) := hrd.nonneg (div_nonneg a0 hr.le)
  have e1 := hrd s
  rw [abs_of_nonneg s0, abs_le] at e1
  have e2 := hrd (rd s / r)
  rw [abs_of_nonneg (a := rd s / r) (div_nonneg a0 hr.le)] at e2
  generalize rd s = a at *
  generalize rd (a / r) = t at *
  have e3 : |t * r - a| ≤ a / 2 ^ 53 := by
    rw [show t * r - a = (t - a / r) * r by field_simp, abs_mul, abs_of_pos hr]
    refine (mul_le_mul_of_nonneg_right e2 hr.le).trans (le_of_eq ?_)
    field_simp
  rw [abs_le] at e3
  rw [truncToInt_nonneg t0]
  have f0 : 0 ≤ ⌊t⌋ := Int.floor_nonneg.2 t0
  refine ⟨⌊t⌋.toNat, rfl, fun N hN => ?_⟩
  have hk : ((⌊t⌋.toNat : Nat) : K) = (⌊t⌋ : K) := by exact_mod_cast congrArg (Int.cast (R := K)) (Int.toNat_of_nonneg f0)
  rw [hk]
  have f1 := mul_le_mul_of_nonneg_right (Int.floor_le t) hr.le
  have f2 := mul_le_mul_of_nonneg_right (Int.lt_floor_add_one t).le hr.le
  have hN' : ((⌊t⌋ : K) + 1) ≤ N := by
    have : (⌊t⌋ + 1 : Int) ≤ N := by omega
    exact_mod_cast this
  have f3 := mul_le_mul_of_nonneg_right hN' hr.le
  have n0 : 0 ≤ (N : K) * r := mul_nonneg (Nat.cast_nonneg _) hr.le
  have as : a / 2 ^ 53 ≤ a / 8 := div_le_div_of_nonneg_left a0 (by norm_num) (by norm_num)
  have ss : s / 2 ^ 53 ≤ s / 8 := div_le_div_of_nonneg_left s0 (by norm_num) (by norm_num)
  have aN : a ≤ 2 * (N * r) := by linarith [e3.1]
  have sN : s ≤ 4 * (N * r) := by linarith [e1.1]
  have aN' : a / 2 ^ 53 ≤ 2 * (N * r / 2 ^ 53) := (div_le_div_of_nonneg_right aN (by norm_num)).trans (le_of_eq (by ring))
  have sN' : s / 2 ^ 53 ≤ 4 * (N * r / 2 ^ 53) := (div_le_div_of_nonneg_right sN (by norm_num)).trans (le_of_eq (by ring))
  have nn : 0 ≤ (N : K) * r / 2 ^ 53 := by positivity
  have h50 : (N : K) * r / 2 ^ 50 = 8 * (N * r / 2 ^ 53) := by ring
  rw [h50]
  constructor <;> linarith [e1.1, e1.2, e3.1, e3.2]

/-- The centre of the window is near the robot. -/
theorem windowCentreRd_near {rd : K → K} (hrd : DoublePrecision rd) {len p o r : K} (hr : 0 < r) :
    |windowCentreRd rd len p o r - p| ≤ r / 2 + (|p| + |o| + r) / 2 ^ 48 := by
  have e1 := hrd (p - o)
  have e2 := hrd (rd (p - o) / r)
  have D0 : |p - o| ≤ |p| + |o| := abs_sub _ _
  have hpo := abs_nonneg o
  have hpp := abs_nonneg p
  generalize hD : |p| + |o| = D at *
  have hDp : |o| ≤ D := by linarith
  have Dn : 0 ≤ D := by linarith
  set δ := D / 2 ^ 53 with hδ
  set ρ := r / 2 ^ 53 with hρ
  have δ0 : 0 ≤ δ := by positivity
  have ρ0 : 0 < ρ := by positivity
  have δD : δ ≤ D / 2 ^ 10 := div_le_div_of_nonneg_left Dn (by norm_num) (by norm_num)
  have ρr : ρ ≤ r / 2 ^ 10 := div_le_div_of_nonneg_left hr.le (by norm_num) (by norm_num)
  have e1' : |rd (p - o) - (p - o)| ≤ δ := e1.trans (div_le_div_of_nonneg_right D0 (by norm_num))
  generalize haa : rd (p - o) = a at *
  have ha : |a| ≤ D + δ := by
    have := abs_sub_abs_le_abs_sub a (p - o)
    linarith
  have e3 : |rd (a / r) * r - a| ≤ 2 * δ := by
    rw [show rd (a / r) * r - a = (rd (a / r) - a / r) * r by field_simp, abs_mul, abs_of_pos hr]
    refine (mul_le_mul_of_nonneg_right e2 hr.le).trans ?_
    rw [abs_div, abs_of_pos hr, show |a| / r / 2 ^ 53 * r = |a| / 2 ^ 53 by field_simp]
    have : |a| / 2 ^ 53 ≤ (D + D) / 2 ^ 53 := div_le_div_of_nonneg_right (by linarith) (by norm_num)
    refine this.trans (le_of_eq ?_)
    rw [hδ]; ring
  generalize hcell : rd (a / r) = cell at *
  rw [abs_le] at e3 e1' ha
  have bnd : ∀ {x E : K}, |x| ≤ E → |rd x - x| ≤ E / 2 ^ 53 := fun {x E} h => (hrd x).trans (div_le_div_of_nonneg_right h (by norm_num))
  have total : (D + r) / 2 ^ 48 = 32 * δ + 32 * ρ := by rw [hδ, hρ]; ring
  rw [total]
  unfold windowCentreRd
  simp only [haa, hcell]
  split
  · have f1 := mul_le_mul_of_nonneg_right (Int.floor_le cell) hr.le
    have f2 := mul_le_mul_of_nonneg_right (Int.lt_floor_add_one cell).le hr.le
    rw [add_mul, one_mul] at f2
    generalize (⌊cell⌋ : K) * r = f at *
    have b1 : |f| ≤ 2 * D + r := by rw [abs_le]; constructor <;> linarith [e3.1, e3.2, ha.1, ha.2]
    have g1 := bnd b1
    rw [show (2 * D + r) / 2 ^ 53 = 2 * δ + ρ by rw [hδ, hρ]; ring, abs_le] at g1
    generalize rd f = f' at *
    have g2 := bnd (x := r / 2) (E := r) (by rw [abs_of_pos (by linarith)]; linarith)
    rw [← hρ, abs_le] at g2
    generalize rd (r / 2) = h at *
    have b3 : |f' + h| ≤ 3 * D + 3 * r := by
      rw [abs_le]; rw [abs_le] at b1
      constructor <;> linarith [g1.1, g1.2, g2.1, g2.2, b1.1, b1.2]
    have g3 := bnd b3
    rw [show (3 * D + 3 * r) / 2 ^ 53 = 3 * δ + 3 * ρ by rw [hδ, hρ]; ring, abs_le] at g3
    generalize rd (f' + h) = g at *
    have b4 : |g + o| ≤ 5 * D + 4 * r := by
      refine (abs_add_le _ _).trans ?_
      have : |g| ≤ 4 * D + 4 * r := by
        rw [abs_le]; rw [abs_le] at b3
        constructor <;> linarith [g3.1, g3.2, b3.1, b3.2]
      linarith
    have g4 := bnd b4
    rw [show (5 * D + 4 * r) / 2 ^ 53 = 5 * δ + 4 * ρ by rw [hδ, hρ]; ring, abs_le] at g4
    rw [abs_le]
    constructor <;> linarith [g1.1, g1.2, g2.1, g2.2, g3.1, g3.2, g4.1, g4.2, e3.1, e3.2, e1'.1, e1'.2]
  · have hround : |(roundHalfAway cell : K) - cell| ≤ 1 / 2 := by
      unfold roundHalfAway
      rw [abs_le]
      split
      · have h1 := Int.floor_le (cell + 1 / 2)
        have h2 := Int.lt_floor_add_one (cell + 1 / 2)
        constructor <;> linarith
      · have h1 := Int.floor_le (-cell + 1 / 2)
        have h2 := Int.lt_floor_add_one (-cell + 1 / 2)
        push_cast
        constructor <;> linarith
    rw [abs_le] at hround
    have f1 := mul_le_mul_of_nonneg_right hround.1 hr.le
    have f2 := mul_le_mul_of_nonneg_right hround.2 hr.le
    rw [sub_mul] at f1 f2
    generalize (roundHalfAway cell : K) * r = f at *
    have b1 : |f| ≤ 2 * D + r := by rw [abs_le]; constructor <;> linarith [e3.1, e3.2, ha.1, ha.2]
    have g1 := bnd b1
    rw [show (2 * D + r) / 2 ^ 53 = 2 * δ + ρ by rw [hδ, hρ]; ring, abs_le] at g1
    generalize rd f = f' at *
    have b4 : |f' + o| ≤ 4 * D + 2 * r := by
      refine (abs_add_le _ _).trans ?_
      have : |f'| ≤ 3 * D + 2 * r := by
        rw [abs_le]; rw [abs_le] at b1
        constructor <;> linarith [g1.1, g1.2, b1.1, b1.2]
      linarith
    have g4 := bnd b4
    rw [show (4 * D + 2 * r) / 2 ^ 53 = 4 * δ + 2 * ρ by rw [hδ, hρ]; ring, abs_le] at g4
    rw [abs_le]
    constructor <;> linarith [g1.1, g1.2, g4.1, g4.2, e3.1, e3.2, e1'.1, e1'.2]

/-- `setGeometry` in floating point for a length of a known number of cells. -/
theorem setGeometryRd_whole {rd : K → K} {len : Vec K} {r : K} (hr : 0 < r) (lx : 0 < len.x) (ly : 0 < len.y) {nx ny : Nat}
    (hx : 0 < nx) (hy : 0 < ny) (cx : roundHalfAway (rd (len.x / r)) = nx) (cy : roundHalfAway (rd (len.y / r)) = ny) (p : Vec K)
    {m : CostMap K} (hc : m.Coherent) : ∃ m', setGeometryRd rd len r p m = (.ok (), m') ∧ m'.Coherent ∧ m'.GeoRd rd ∧
      m'.startIndex = 0 ∧ m'.size = ⟨nx, ny⟩ ∧ m'.resolution = r ∧ m'.position = p ∧ m'.length = ⟨rd (nx * r), rd (ny * r)⟩ ∧
      m'.layers = m.layers ∧ (∀ l, m'.exists l = m.exists l) ∧ SameMeta m m' := by
  obtain ⟨m1, e1, c1, g1, s1, z1, r1, p1, l1, ly1, ex1, sm1⟩ := setGeometry_whole hr hx hy p hc
  have px : (0 : K) < nx := by exact_mod_cast hx
  have py : (0 : K) < ny := by exact_mod_cast hy
  have q : ∀ k : Nat, roundHalfAway ((k : K) * r / r) = k := fun k => by
    rw [mul_div_cancel_right₀ _ hr.ne']; exact_mod_cast roundHalfAway_intCast (K := K) (k : Int) (by omega)
  have key := setGeometryRd_eq (rd := rd) (len := len) (len' := ⟨nx * r, ny * r⟩) (n := ⟨nx, ny⟩) p lx ly hr cx cy
    (mul_pos px hr) (mul_pos py hr) (q nx) (q ny) m
  rw [e1] at key
  simp only [Int.cast_natCast] at key
  refine ⟨_, key, ⟨c1.nodup, c1.mem_iff, c1.dims⟩, ⟨g1.res_pos, g1.size_x, g1.size_y, ?_, ?_, g1.start⟩, s1, z1, r1, p1, rfl, ly1, ex1,
    ⟨sm1.frameId, sm1.timestamp, sm1.basicLayers⟩⟩
  · show rd ((nx : K) * r) = rd ((m1.size.x : K) * m1.resolution)
    rw [z1, r1, Int.cast_natCast]
  · show rd ((ny : K) * r) = rd ((m1.size.y : K) * m1.resolution)
    rw [z1, r1, Int.cast_natCast]

/-- The cost of a cell of the matrix that is made of a window. -/
theorem region_cell {c : Costmap2D K} (h : c.costs.length = c.sizeX * c.sizeY) {x y nx ny : Nat} (hx : x + nx ≤ c.sizeX)
    (hy : y + ny ≤ c.sizeY) : ∃ d, c.region x y nx ny = some d ∧ d.length = nx * ny ∧
      ∀ i : Idx, i.In ⟨nx, ny⟩ → ∃ col row : Nat, (col : Int) = x + (nx - 1 - i.x) ∧ (row : Int) = y + (ny - 1 - i.y) ∧
        d[((ny - 1 - i.y) * nx + (nx - 1 - i.x)).toNat]? = c.cell col row := by
  obtain ⟨d, d1, d2, d3⟩ := region_get h hx hy
  refine ⟨d, d1, d2, ?_⟩
  rintro ⟨ix, iy⟩ ⟨i1, i2, i3, i4⟩
  simp only at i1 i2 i3 i4 ⊢
  obtain ⟨a, ha⟩ := Int.eq_ofNat_of_zero_le (show 0 ≤ (nx : Int) - 1 - ix by omega)
  obtain ⟨b, hb⟩ := Int.eq_ofNat_of_zero_le (show 0 ≤ (ny : Int) - 1 - iy by omega)
  refine ⟨x + a, y + b, by rw [ha]; push_cast; rfl, by rw [hb]; push_cast; rfl, ?_⟩
  rw [ha, hb, show (((b : Nat) : Int) * (nx : Int) + (a : Int)).toNat = b * nx + a by
    rw [show ((b : Int) * nx + a) = ((b * nx + a : Nat) : Int) by push_cast; rfl]; rfl, d3 a b (by omega) (by omega)]
  unfold Costmap2D.cell
  rw [if_pos ⟨by omega, by omega⟩]

/-- A position well inside a cell of the ROS costmap is looked up in that cell. -/
theorem lookup_cell {rd : K → K} (hrd : DoublePrecision rd) {q o r : K} (hr : 0 < r) {k n : Nat} (hk : k < n)
    (h : |q - (o + ((k : K) + 1 / 2) * r)| ≤ r / 2 - Costmap2D.axisTol n o r) :
    ¬ q < o ∧ (truncToInt (rd (rd (q - o) / r))).toNat = k := by
  rw [abs_le] at h
  have k0 : (0 : K) ≤ k := Nat.cast_nonneg k
  have kn : (k : K) + 1 ≤ n := by exact_mod_cast hk
  have ht : ((n : K) + 1) * r / 2 ^ 46 ≤ Costmap2D.axisTol n o r := by
    unfold Costmap2D.axisTol
    rw [div_le_div_iff₀ (by norm_num) (by norm_num)]
    have := abs_nonneg o
    linarith
  set t := ((n : K) + 1) / 2 ^ 46 with htt
  have ht' : t * r ≤ Costmap2D.axisTol n o r := by rw [htt, div_mul_eq_mul_div]; exact ht
  have t0 : 0 < t := by positivity
  have hn0 : (0 : K) < n := by linarith
  generalize hs : q - o = s at *
  have s1 : ((k : K) + t) * r ≤ s := by
    have : ((k : K) + t) * r = k * r + t * r := by ring
    have : ((k : K) + 1 / 2) * r = k * r + r / 2 := by ring
    linarith [h.1]
  have s2 : s ≤ ((k : K) + 1 - t) * r := by
    have : ((k : K) + 1 - t) * r = k * r + r - t * r := by ring
    have : ((k : K) + 1 / 2) * r = k * r + r / 2 := by ring
    linarith [h.2]
  have s0 : 0 ≤ s := le_trans (by positivity) s1
  have a0 := hrd.nonneg s0
  refine ⟨by linarith, ?_⟩
  have e1 := hrd s
  rw [abs_of_nonneg s0, abs_le] at e1
  have e2 := hrd (rd s / r)
  rw [abs_of_nonneg (a := rd s / r) (div_nonneg a0 hr.le), abs_le] at e2
  have sn : s ≤ n * r := s2.trans (mul_le_mul_of_nonneg_right (by linarith) hr.le)
  generalize hu : rd s / r = u at *
  have hu' : rd s = u * r := by rw [← hu]; field_simp
  rw [hu'] at e1
  -- the first rounding
  have u1 : (k : K) + t - n / 2 ^ 53 ≤ u := by
    refine le_of_mul_le_mul_right ?_ hr
    have : ((k : K) + t - n / 2 ^ 53) * r = (k + t) * r - n * r / 2 ^ 53 := by ring
    rw [this]
    linarith [e1.1, div_le_div_of_nonneg_right sn (by norm_num : (0 : K) ≤ 2 ^ 53)]
  have u2 : u ≤ (k : K) + 1 - t + n / 2 ^ 53 := by
    refine le_of_mul_le_mul_right ?_ hr
    have : ((k : K) + 1 - t + n / 2 ^ 53) * r = (k + 1 - t) * r + n * r / 2 ^ 53 := by ring
    rw [this]
    linarith [e1.2, div_le_div_of_nonneg_right sn (by norm_num : (0 : K) ≤ 2 ^ 53)]
  have t53 : t = ((n : K) + 1) / 2 ^ 53 * 2 ^ 7 := by rw [htt]; ring
  have w0 : 0 < ((n : K) + 1) / 2 ^ 53 := by positivity
  have n53 : (n : K) / 2 ^ 53 ≤ ((n : K) + 1) / 2 ^ 53 := div_le_div_of_nonneg_right (by linarith) (by norm_num)
  have uu : u / 2 ^ 53 ≤ ((n : K) + 1) / 2 ^ 53 := div_le_div_of_nonneg_right (by linarith) (by norm_num)
  generalize ((n : K) + 1) / 2 ^ 53 = w at *
  have v0 : (k : K) ≤ rd u := by linarith [e2.1]
  have v1 : rd u < (k : K) + 1 := by linarith [e2.2]
  rw [truncToInt_nonneg (by linarith), show ⌊rd u⌋ = (k : Int) by rw [Int.floor_eq_iff]; exact ⟨by exact_mod_cast v0, by exact_mod_cast v1⟩]
  rfl

/-- The centre of the map made from a whole ROS costmap. -/
theorem wholeCentre_near {rd : K → K} (hrd : DoublePrecision rd) {o r : K} (hr : 0 < r) (n : Nat) :
    |rd (o + rd (1 / 2 * rd ((n : K) * r))) - (o + n * r / 2)| ≤ Costmap2D.axisTol n o r / 4 := by
  have n0 : (0 : K) ≤ n := Nat.cast_nonneg n
  have ht : (|o| + 2 * (n * r)) / 2 ^ 49 ≤ Costmap2D.axisTol n o r / 4 := by
    unfold Costmap2D.axisTol
    rw [div_div, show (2 : K) ^ 47 * 4 = 2 ^ 49 by norm_num]
    refine div_le_div_of_nonneg_right ?_ (by norm_num)
    linarith
  refine le_trans ?_ ht
  have hN : 0 ≤ (n : K) * r := by positivity
  generalize (n : K) * r = N at *
  have e1 := hrd N
  rw [abs_of_nonneg hN, abs_le] at e1
  have hL := hrd.nonneg hN
  generalize rd N = L at *
  have e2 := hrd (1 / 2 * L)
  rw [abs_of_nonneg (a := 1 / 2 * L) (by positivity), abs_le] at e2
  have hh := hrd.nonneg (show 0 ≤ 1 / 2 * L by positivity)
  generalize rd (1 / 2 * L) = h at *
  have e3 := hrd (o + h)
  have : |o + h| / 2 ^ 53 ≤ (|o| + h) / 2 ^ 53 := by
    refine div_le_div_of_nonneg_right ((abs_add_le _ _).trans ?_) (by norm_num)
    rw [abs_of_nonneg hh]
  have e3 := abs_le.1 (e3.trans this)
  have ho := abs_nonneg o
  generalize |o| = O at *
  generalize hO : O / 2 ^ 53 = a at *
  generalize hNN : N / 2 ^ 53 = b at *
  have hO' : O = a * 2 ^ 53 := by rw [← hO]; field_simp
  have hN' : N = b * 2 ^ 53 := by rw [← hNN]; field_simp
  rw [show (O + 2 * N) / 2 ^ 49 = 16 * a + 32 * b by rw [hO', hN']; ring, abs_le]
  have a0 : 0 ≤ a := by rw [← hO]; positivity
  have b0 : 0 ≤ b := by rw [← hNN]; positivity
  have l1 : 1 / 2 * L / 2 ^ 53 ≤ b := by rw [← hNN]; exact div_le_div_of_nonneg_right (by linarith) (by norm_num)
  have l2 : (O + h) / 2 ^ 53 ≤ a + 4 * b := by
    rw [add_div, hO]
    have : h / 2 ^ 53 ≤ 4 * b := by
      rw [← hNN, ← mul_div_assoc]; exact div_le_div_of_nonneg_right (by linarith) (by norm_num)
    linarith
  constructor <;> linarith [e1.1, e1.2, e2.1, e2.2, e3.1, e3.2]

/-- Two roundings of a quotient of up to `2^49`. -/
theorem cell_near {rd : K → K} (hrd : DoublePrecision rd) {s r : K} (hr : 0 < r) (s0 : 0 ≤ s) (hs : s ≤ 2 ^ 49 * r) :
    |rd (rd s / r) - s / r| ≤ 1 / 4 := by
  have e1 := hrd s
  rw [abs_of_nonneg s0, abs_le] at e1
  have a0 := hrd.nonneg s0
  have e2 := hrd (rd s / r)
  rw [abs_of_nonneg (a := rd s / r) (div_nonneg a0 hr.le), abs_le] at e2
  generalize hu : rd s / r = u at *
  have hu' : rd s = u * r := by rw [← hu]; field_simp
  generalize hv : s / r = v at *
  have hv' : s = v * r := by rw [← hv]; field_simp
  rw [hu', hv'] at e1
  have v49 : v ≤ 2 ^ 49 := by rw [hv'] at hs; exact le_of_mul_le_mul_right hs hr
  have v1 : v / 2 ^ 53 ≤ 1 / 16 := by rw [div_le_iff₀ (by norm_num)]; linarith
  have u1 : v - 1 / 16 ≤ u := by
    refine le_of_mul_le_mul_right ?_ hr
    have : v * r / 2 ^ 53 ≤ 1 / 16 * r := by rw [mul_div_right_comm]; exact mul_le_mul_of_nonneg_right v1 hr.le
    rw [sub_mul]; linarith [e1.1]
  have u2 : u ≤ v + 1 / 16 := by
    refine le_of_mul_le_mul_right ?_ hr
    have : v * r / 2 ^ 53 ≤ 1 / 16 * r := by rw [mul_div_right_comm]; exact mul_le_mul_of_nonneg_right v1 hr.le
    rw [add_mul]; linarith [e1.2]
  have uu : u / 2 ^ 53 ≤ 1 / 8 := by rw [div_le_iff₀ (by norm_num)]; linarith
  rw [abs_le]
  constructor <;> linarith [e2.1, e2.2]

/-- On a grid of multiples of `u` the window is computed without errors, wherever the robot is. -/
theorem window_axis_exact {rd : K → K} (hrd : DoublePrecision rd) (hi : IntsExact rd) {u : K} (hu : 0 < u) (hg : GridExact rd u)
    {a : Nat} (ha : 0 < a) {b : Int} {n N : Nat} (hn : 0 < n) (hb : |b| + 2 * (a * (N + 1)) < 2 ^ 49) {p o r : K}
    (hr : r = 2 * a * u) (ho : o = b * u) (h0 : o + (n + 2) * r / 2 ≤ p) (h1 : p + (n + 2) * r / 2 ≤ o + N * r) :
    ∃ x0 : Nat, x0 + n < N ∧ windowCentreRd rd (n * r) p o r = o + x0 * r + n * r / 2 ∧ rd (n * r) = n * r ∧
      rd (n * r / r) = n ∧ rd (o + x0 * r + n * r / 2 - rd (n * r / 2)) = o + x0 * r ∧
      rd (o + x0 * r + n * r) = o + (x0 + n : Nat) * r ∧
      (∀ k : Nat, k ≤ N → ¬ (o + k * r < o) ∧ (truncToInt (rd (rd (o + k * r - o) / r))).toNat = k) := by
  have hr0 : 0 < r := by
    have : (0 : K) < a := by exact_mod_cast ha
    rw [hr]; positivity
  have nN : n + 2 ≤ N := by
    have : ((n : K) + 2) * r ≤ N * r := by linarith
    have := le_of_mul_le_mul_right this hr0
    exact_mod_cast this
  have b1 := neg_abs_le b
  have b2 := le_abs_self b
  have aN : ∀ k : Nat, k ≤ N + 1 → (a : Int) * k ≤ a * (N + 1) := fun k hk =>
    mul_le_mul_of_nonneg_left (by exact_mod_cast hk) (by omega)
  have aN0 : ∀ k : Nat, (0 : Int) ≤ a * k := fun k => by positivity
  have a1 : ∀ k : Nat, (k : Int) ≤ a * k := fun k => by
    have := mul_le_mul_of_nonneg_right (show (1 : Int) ≤ a by exact_mod_cast ha) (show (0 : Int) ≤ k by omega)
    omega
  have hN48 : N < 2 ^ 48 := by
    have := a1 (N + 1)
    push_cast at this
    have := abs_nonneg b
    omega
  have G : ∀ (z : Int) (x : K), |z| < 2 ^ 49 → x = z * u → rd x = x := fun z x h e => by
    rw [e]; exact hg z (h.trans (by norm_num))
  -- numbers that are computed
  have ek : ∀ k : Nat, k ≤ N → rd (k * r) = k * r := fun k hk => by
    refine G (2 * (a * k)) _ ?_ (by rw [hr]; push_cast; ring)
    have := aN k (by omega)
    have := aN0 k
    have := abs_nonneg b
    rw [abs_lt]; constructor <;> omega
  have eko : ∀ k : Nat, k ≤ N → rd (o + k * r) = o + k * r := fun k hk => by
    refine G (b + 2 * (a * k)) _ ?_ (by rw [hr, ho]; push_cast; ring)
    have := aN k (by omega)
    have := aN0 k
    rw [abs_lt]; constructor <;> omega
  have eh : rd (r / 2) = r / 2 := by
    refine G a _ ?_ (by rw [hr]; push_cast; ring)
    have := aN 1 (by omega)
    have := aN0 1
    have := abs_nonneg b
    rw [abs_lt]; constructor <;> omega
  have ekh : ∀ k : Nat, k ≤ N → rd (k * r + r / 2) = k * r + r / 2 := fun k hk => by
    refine G (2 * (a * k) + a) _ ?_ (by rw [hr]; push_cast; ring)
    have q := aN (k + 1) (by omega)
    rw [show (a : Int) * ((k + 1 : Nat) : Int) = a * k + a by push_cast; ring] at q
    have := aN0 k
    have := abs_nonneg b
    rw [abs_lt]; constructor <;> omega
  have ekho : ∀ k : Nat, k ≤ N → rd (k * r + r / 2 + o) = k * r + r / 2 + o := fun k hk => by
    refine G (2 * (a * k) + a + b) _ ?_ (by rw [hr, ho]; push_cast; ring)
    have q := aN (k + 1) (by omega)
    rw [show (a : Int) * ((k + 1 : Nat) : Int) = a * k + a by push_cast; ring] at q
    have := aN0 k
    rw [abs_lt]; constructor <;> omega
  have en : rd (n * r / 2) = n * r / 2 := by
    refine G (a * n) _ ?_ (by rw [hr]; push_cast; ring)
    have := aN n (by omega)
    have := aN0 n
    have := abs_nonneg b
    rw [abs_lt]; constructor <;> omega
  have ei : ∀ k : Nat, k ≤ N → rd ((k : K) * r / r) = k := fun k hk => by
    rw [mul_div_cancel_right₀ _ hr0.ne']
    have := hi k (by rw [abs_lt]; constructor <;> omega)
    exact_mod_cast this
  have look : ∀ k : Nat, k ≤ N → ¬ (o + k * r < o) ∧ (truncToInt (rd (rd (o + k * r - o) / r))).toNat = k := fun k hk => by
    have k0 : (0 : K) ≤ k := Nat.cast_nonneg k
    have : 0 ≤ (k : K) * r := by positivity
    refine ⟨by linarith, ?_⟩
    rw [add_sub_cancel_left, ek k hk, ei k hk, truncToInt_nonneg k0, Int.floor_natCast]
    rfl
  -- the cell of the robot
  have s0 : 0 ≤ p - o := by
    have : 0 ≤ ((n : K) + 2) * r / 2 := by positivity
    linarith
  have near := cell_near hrd hr0 s0 (show p - o ≤ 2 ^ 49 * r by
    have : (N : K) ≤ 2 ^ 49 := by
      have : N ≤ 2 ^ 49 := by omega
      exact_mod_cast this
    have := mul_le_mul_of_nonneg_right this hr0.le
    have : 0 ≤ ((n : K) + 2) * r / 2 := by positivity
    linarith)
  have lo : ((n : K) + 2) / 2 ≤ (p - o) / r := by rw [le_div_iff₀ hr0]; linarith
  have hi' : (p - o) / r ≤ N - ((n : K) + 2) / 2 := by rw [div_le_iff₀ hr0, sub_mul]; linarith
  rw [abs_le] at near
  have fin : ∀ x0 : Nat, x0 + n < N → windowCentreRd rd (n * r) p o r = o + x0 * r + n * r / 2 → _ := fun x0 hx hc =>
    (⟨x0, hx, hc, ek n (by omega), ei n (by omega), by rw [en, add_sub_cancel_right]; exact eko x0 (by omega), by
      have := eko (x0 + n) (by omega)
      rw [show o + (x0 : K) * r + n * r = o + ((x0 + n : Nat) : K) * r by push_cast; ring]
      exact this, look⟩ : ∃ x0 : Nat, x0 + n < N ∧ windowCentreRd rd (n * r) p o r = o + x0 * r + n * r / 2 ∧ rd (n * r) = n * r ∧
      rd (n * r / r) = n ∧ rd (o + x0 * r + n * r / 2 - rd (n * r / 2)) = o + x0 * r ∧
      rd (o + x0 * r + n * r) = o + (x0 + n : Nat) * r ∧
      (∀ k : Nat, k ≤ N → ¬ (o + k * r < o) ∧ (truncToInt (rd (rd (o + k * r - o) / r))).toNat = k))
  have par : truncToInt (rd ((n : K) * r / r)) = n := by
    rw [ei n (by omega), truncToInt_nonneg (Nat.cast_nonneg n), Int.floor_natCast]
  generalize hcell : rd (rd (p - o) / r) = cell at *
  rcases Nat.even_or_odd' n with ⟨j, hj | hj⟩
  · -- an even number of cells
    have hjK : (n : K) = 2 * j := by rw [hj]; push_cast; ring
    have c0 : (j : K) + 3 / 4 ≤ cell := by linarith
    have c1 : cell ≤ (N : K) - j - 3 / 4 := by linarith
    have j0 : (0 : K) ≤ j := Nat.cast_nonneg j
    have hround : roundHalfAway cell = ⌊cell + 1 / 2⌋ := if_pos (by linarith)
    obtain ⟨k, hk⟩ := Int.eq_ofNat_of_zero_le (a := ⌊cell + 1 / 2⌋) (Int.floor_nonneg.2 (by linarith))
    have k1 : j + 1 ≤ k := by
      have : ((j + 1 : Nat) : Int) ≤ ⌊cell + 1 / 2⌋ := Int.le_floor.2 (by push_cast; linarith)
      rw [hk] at this; exact_mod_cast this
    have k2 : k + j < N := by
      have f := Int.floor_le (cell + 1 / 2)
      rw [hk] at f
      have : (k : K) + j < N := by
        have : ((Int.ofNat k : Int) : K) = k := by simp
        rw [show ((k : Int) : K) = (k : K) from Int.cast_natCast k] at f
        linarith
      exact_mod_cast this
    refine fin (k - j) (by omega) ?_
    have hkj : ((k - j : Nat) : K) = k - j := Nat.cast_sub (by omega)
    unfold windowCentreRd
    simp only [hcell]
    rw [par, if_neg (by omega), hround, hk, show (((k : Nat) : Int) : K) = (k : K) from Int.cast_natCast k, ek k (by omega),
      add_comm ((k : K) * r) o, eko k (by omega), hkj, hjK]
    ring
  · -- an odd number of cells
    have hjK : (n : K) = 2 * j + 1 := by rw [hj]; push_cast; ring
    have c0 : (j : K) + 5 / 4 ≤ cell := by linarith
    have c1 : cell ≤ (N : K) - j - 5 / 4 := by linarith
    have j0 : (0 : K) ≤ j := Nat.cast_nonneg j
    obtain ⟨k, hk⟩ := Int.eq_ofNat_of_zero_le (a := ⌊cell⌋) (Int.floor_nonneg.2 (by linarith))
    have k1 : j + 1 ≤ k := by
      have : ((j + 1 : Nat) : Int) ≤ ⌊cell⌋ := Int.le_floor.2 (by push_cast; linarith)
      rw [hk] at this; exact_mod_cast this
    have k2 : k + j + 1 < N := by
      have f := Int.floor_le cell
      rw [hk, show ((k : Int) : K) = (k : K) from Int.cast_natCast k] at f
      have : (k : K) + j + 1 < N := by linarith
      exact_mod_cast this
    refine fin (k - j) (by omega) ?_
    have hkj : ((k - j : Nat) : K) = k - j := Nat.cast_sub (by omega)
    unfold windowCentreRd
    simp only [hcell]
    rw [par, if_pos (by omega), hk, show (((k : Nat) : Int) : K) = (k : K) from Int.cast_natCast k, ek k (by omega), eh,
      ekh k (by omega), ekho k (by omega), hkj, hjK]
    ring

end CostMapModel

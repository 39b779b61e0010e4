import Verif.Lemmas.MachineSpiral
import Verif.Props.Machine
import Verif.Props.Spiral

/-!
# The spiral iterator in floating point and 32-bit integers: C81
-/

set_option linter.unusedSectionVars false

namespace CostMapModel
open CostMap
variable {K : Type} [Field K] [LinearOrder K] [IsStrictOrderedRing K] [FloorRing K]

/-! ## The square root -/

/-- C81. `toDouble` and `sqrtDouble` meet the assumptions about `rd` and `sqrt`. -/
theorem C81_double : IntsExact toDouble ∧ SqrtInts sqrtDouble := ⟨toDouble_ints, sqrtDouble_ints⟩

/-- C81. The truncated norm the spiral compares with the number of its ring is the integer part of the length of the offset: the
errors of the `double` operations do not matter for offsets of up to 2^24 cells. -/
theorem C81_norm {rd sqrt : K → K} (hi : IntsExact rd) (hs : SqrtInts sqrt) {x y : Int} (hx : |x| ≤ 2 ^ 24) (hy : |y| ≤ 2 ^ 24)
    (d : Nat) : normM rd sqrt x y = some (d : Int) ↔ InAnnulus d ⟨x, y⟩ := by
  rw [normM_eq hi hs (by omega) (by omega), ← normIs_iff]
  simp only [normIs, decide_eq_true_eq, Option.some.injEq, Nat.cast_inj]

/-! ## The loop -/

/-- The number of rings the iterator walks. -/
def spiralRingsRd (rd : K → K) (m : CostMap K) (radius : K) : Nat := ⌈rd (radius / m.resolution)⌉.toNat

/-- Every ring before the last contributes a cell: it has a cell on the map, for the last but one a cell clearly within the
radius. -/
def RingsReachRd (rd : K → K) (m : CostMap K) (center : Vec K) (radius : K) : Prop :=
  ∀ d, 1 ≤ d → d < spiralRingsRd rd m radius → ∃ i p, m.getPositionRd rd i = some p ∧
    InAnnulus d (i - (m.getIndexRd rd center).1) ∧
    (d + 1 = spiralRingsRd rd m radius → dist2 p center ≤ (1 - 1 / 2 ^ 50) * radius ^ 2)

/-- The iterator the constructor makes for a centre inside the map. -/
def spiralInitRd (rd : K → K) (m : CostMap K) (center : Vec K) (radius : K) : SpiralIter K :=
  { center := center, indexCenter := (m.getIndexRd rd center).1, radiusSquare := rd (radius * radius),
    nRings := spiralRingsRd rd m radius, distance := 0, points := [(m.getIndexRd rd center).1], length := m.length,
    position := m.position, resolution := m.resolution, size := m.size }

theorem rings_bounds {rd : K → K} (hrd : DoublePrecision rd) {radius res : K} (hr : 0 ≤ radius) (hres : 0 < res) {N : Nat}
    (hN : N ≤ 2 ^ 23) (hR : radius ≤ N * res) :
    0 ≤ ⌈rd (radius / res)⌉ ∧ ⌈rd (radius / res)⌉.toNat ≤ N + 1 ∧
    radius ≤ (⌈rd (radius / res)⌉.toNat + 1 / 8) * res ∧
    ∀ d : Nat, d < ⌈rd (radius / res)⌉.toNat → (d : K) * res < radius + radius / 2 ^ 53 := by
  have x0 : 0 ≤ radius / res := div_nonneg hr hres.le
  have xN : radius / res ≤ N := by rwa [div_le_iff₀ hres]
  have hx : radius = radius / res * res := by field_simp
  obtain ⟨x, ex⟩ : ∃ x, x = radius / res := ⟨_, rfl⟩
  rw [← ex] at x0 xN hx ⊢
  have hNK : (N : K) ≤ 2 ^ 23 := by exact_mod_cast hN
  obtain ⟨l, u⟩ := rd_rel hrd x0 le_rfl le_rfl
  have l0 : 0 ≤ rd x := le_trans (mul_nonneg (by norm_num) x0) l
  have c0 : 0 ≤ ⌈rd x⌉ := Int.ceil_nonneg l0
  have hn : ((⌈rd x⌉.toNat : Nat) : Int) = ⌈rd x⌉ := Int.toNat_of_nonneg c0
  have hnK : ((⌈rd x⌉.toNat : Nat) : K) = ((⌈rd x⌉ : Int) : K) := by
    rw [← Int.cast_natCast, hn]
  refine ⟨c0, ?_, ?_, ?_⟩
  · have : ⌈rd x⌉ ≤ N + 1 := by
      rw [Int.ceil_le]
      push_cast
      have : (1 + 1 / 2 ^ 53) * x ≤ x + 1 := by
        have : x / 2 ^ 53 ≤ 1 := by rw [div_le_one (by positivity)]; linarith
        linarith [show (1 + 1 / 2 ^ 53 : K) * x = x + x / 2 ^ 53 by ring]
      linarith
    omega
  · have h1 := Int.le_ceil (rd x)
    rw [← hnK] at h1
    have h2 : x ≤ (⌈rd x⌉.toNat : K) + 1 / 8 := by
      have : x / 2 ^ 53 ≤ 1 / 8 := by rw [div_le_iff₀ (by positivity)]; linarith
      linarith [show (1 - 1 / 2 ^ 53 : K) * x = x - x / 2 ^ 53 by ring]
    calc radius = x * res := hx
      _ ≤ _ := mul_le_mul_of_nonneg_right h2 hres.le
  · intro d hd
    have h1 : ((d : Nat) : Int) < ⌈rd x⌉ := by omega
    have h2 := Int.lt_ceil.mp h1
    have h3 : (d : K) < (1 + 1 / 2 ^ 53) * x := lt_of_lt_of_le (by exact_mod_cast h2) u
    calc (d : K) * res < (1 + 1 / 2 ^ 53) * x * res := mul_lt_mul_of_pos_right h3 hres
      _ = x * res + x * res / 2 ^ 53 := by ring
      _ = _ := by rw [← hx]

theorem spiral_newM {rd sqrt : K → K} (hrd : DoublePrecision rd) {m : CostMap K} (h : m.GeoRd rd) (ht : m.Tame) (hm : m.Small)
    {center : Vec K} (hc : m.isInsideRd rd center = true) (hci : (m.getIndexRd rd center).1.In m.size) {radius : K}
    (hr : 0 ≤ radius) (hR : radius ≤ 2 ^ 23 * m.resolution) :
    SpiralIter.newM rd sqrt m center radius = .ok (spiralInitRd rd m center radius) := by
  obtain ⟨b1, b2, -⟩ := rings_bounds hrd hr h.res_pos (N := 2 ^ 23) le_rfl (by exact_mod_cast hR)
  unfold SpiralIter.newM
  rw [C79_getIndex hrd h ht hm (C79_inside_near hrd h ht hm hc)]
  simp only [Res.ofOption, Res.bind]
  rw [if_neg (by omega), if_pos (inRange_iff.mpr hci)]
  rfl

theorem keepRd_iff {rd : K → K} {m : CostMap K} (h0 : m.startIndex = 0) (center : Vec K) (radius : K) (d : Nat) (i : Idx) :
    (spiralInitRd rd m center radius).keepRd rd d i = true ↔
      ∃ p, m.getPositionRd rd i = some p ∧
        ((d = spiralRingsRd rd m radius ∨ d + 1 = spiralRingsRd rd m radius) → circleShapeRd rd center radius p = true) := by
  unfold SpiralIter.keepRd
  have hpos : positionFromIndexRd rd i m.length m.position m.resolution m.size 0 = m.getPositionRd rd i := by
    rw [← h0]; rfl
  simp only [spiralInitRd, hpos]
  by_cases hi : i.In m.size
  · have hp := getPositionRd_eq (rd := rd) (m := m) hi
    rw [inRange_iff.mpr hi, hp]
    simp only [Bool.true_and, circleShapeRd, sq radius]
    split
    · rename_i hd
      simp only [hd, true_implies, Option.some.injEq, exists_eq_left']
      rw [decide_eq_true_iff]
      exact decide_eq_true_iff
    · rename_i hd
      simp [hd]
  · have hin : inRange i m.size = false := by
      rw [Bool.eq_false_iff]; exact fun hh => hi (inRange_iff.mp hh)
    rw [hin]
    simp only [Bool.false_and, Bool.false_eq_true, false_iff]
    rintro ⟨p, hp, -⟩
    exact hi (getPositionRd_in hp)

/-- What the spiral visits, for a map whose buffer was never rotated. -/
theorem spiral_visitsM {rd sqrt : K → K} (hrd : DoublePrecision rd) (hi : IntsExact rd) (hs : SqrtInts sqrt) {m : CostMap K}
    (h : m.GeoRd rd) (ht : m.Tame) (hm : m.Small) (h0 : m.startIndex = 0) {center : Vec K}
    (hc : m.isInsideRd rd center = true) (hci : (m.getIndexRd rd center).1.In m.size) {radius : K} (hr : 0 ≤ radius)
    (hR : radius ≤ 2 ^ 23 * m.resolution) (hrings : RingsReachRd rd m center radius) :
    ∃ it xs, SpiralIter.newM rd sqrt m center radius = .ok it ∧ Visits (SpiralIter.opsM rd sqrt) it xs ∧
      (radius ≤ 46000 * m.resolution → ∃ rs, Visits (SpiralIter.opsRadiusM rd sqrt) it rs ∧ rs.map Prod.fst = xs ∧
        ∀ i r, (i, r) ∈ rs → ∃ d : Nat, InAnnulus d (i - (m.getIndexRd rd center).1) ∧ r = rd ((d : K) * m.resolution)) ∧
      xs.Nodup ∧
      xs.Pairwise (fun i j => ∀ d e, InAnnulus d (i - (m.getIndexRd rd center).1) →
        InAnnulus e (j - (m.getIndexRd rd center).1) → d ≤ e) ∧
      (∀ i, i ∈ xs ↔ i = (m.getIndexRd rd center).1 ∨ ∃ d p, 1 ≤ d ∧ d ≤ spiralRingsRd rd m radius ∧
        InAnnulus d (i - (m.getIndexRd rd center).1) ∧ m.getPositionRd rd i = some p ∧
        ((d = spiralRingsRd rd m radius ∨ d + 1 = spiralRingsRd rd m radius) → circleShapeRd rd center radius p = true)) := by
  obtain ⟨it, hit⟩ : ∃ it, it = spiralInitRd rd m center radius := ⟨_, rfl⟩
  have hn : it.nRings = spiralRingsRd rd m radius := by rw [hit]; rfl
  have hcen : it.indexCenter = (m.getIndexRd rd center).1 := by rw [hit]; rfl
  obtain ⟨-, b2, -⟩ := rings_bounds hrd hr h.res_pos (N := 2 ^ 23) le_rfl (by exact_mod_cast hR)
  have ok : it.OkM := by
    rw [hit]
    exact ⟨hm.x, hm.y, by show spiralRingsRd rd m radius ≤ 2 ^ 24; unfold spiralRingsRd; omega, hci⟩
  have hmem : ∀ d, 1 ≤ d → ∀ i, i ∈ it.ringCellsM rd d ↔ InAnnulus d (i - (m.getIndexRd rd center).1) ∧
      ∃ p, m.getPositionRd rd i = some p ∧
        ((d = spiralRingsRd rd m radius ∨ d + 1 = spiralRingsRd rd m radius) → circleShapeRd rd center radius p = true) := by
    intro d hd i
    rw [SpiralIter.mem_ringCellsM it hd, hcen, hit, keepRd_iff h0]
  have hne : ∀ d, 0 < d → d < it.nRings → it.ringCellsM rd d ≠ [] := by
    intro d h1 h2 he
    rw [hn] at h2
    obtain ⟨i, p, hp, ha, hd⟩ := hrings d h1 h2
    have : i ∈ it.ringCellsM rd d := (hmem d h1 i).mpr ⟨ha, p, hp, by
      rintro (h3 | h3)
      · exact absurd h3 (by omega)
      · exact (circleShapeRd_spec hrd center radius p).2 (hd h3)⟩
    rw [he] at this; cases this
  have hat : it.at' 0 [(m.getIndexRd rd center).1] = it := by rw [hit]; rfl
  have hv := SpiralIter.visitsM hi hs ok SpiralIter.deref id (fun _ => True) (fun _ _ _ _ => rfl) it.nRings 0
    [(m.getIndexRd rd center).1] (by omega) (Or.inl (by simp)) hne (fun _ _ => trivial) (fun _ _ _ _ _ => trivial)
  rw [hat, List.map_id] at hv
  have hpw : ([(m.getIndexRd rd center).1] ++ (List.range' (0 + 1) it.nRings).flatMap (it.ringCellsM rd)).Pairwise
      (fun i j => (∀ d e, InAnnulus d (i - (m.getIndexRd rd center).1) →
        InAnnulus e (j - (m.getIndexRd rd center).1) → d ≤ e) ∧ i ≠ j) := by
    rw [List.singleton_append, List.pairwise_cons]
    constructor
    · intro j hj
      obtain ⟨d, hd, hjd⟩ := List.mem_flatMap.mp hj
      rw [List.mem_range'_1] at hd
      have ha := ((hmem d (by omega) j).mp hjd).1
      constructor
      · intro d' e' h1 _
        rw [SpiralIter.annulus_unique h1 (annulus_self _)]; omega
      · intro he
        rw [← he] at ha
        have := SpiralIter.annulus_unique ha (annulus_self _)
        omega
    · rw [List.pairwise_flatMap]
      constructor
      · intro d hd
        rw [List.mem_range'_1] at hd
        have nd := SpiralIter.ringCellsM_nodup (rd := rd) it (d := d) (by omega)
        refine List.Pairwise.imp_of_mem ?_ nd
        intro a b ha hb hab
        refine ⟨?_, hab⟩
        intro d' e' h1 h2
        rw [SpiralIter.annulus_unique h1 ((hmem d (by omega) a).mp ha).1,
          SpiralIter.annulus_unique h2 ((hmem d (by omega) b).mp hb).1]
      · refine List.Pairwise.imp_of_mem ?_ (List.pairwise_lt_range' 1 (by omega))
        intro d e hd he hlt x hx y hy
        rw [List.mem_range'_1] at hd he
        have ax := ((hmem d (by omega) x).mp hx).1
        have ay := ((hmem e (by omega) y).mp hy).1
        constructor
        · intro d' e' h1 h2
          rw [SpiralIter.annulus_unique h1 ax, SpiralIter.annulus_unique h2 ay]; omega
        · intro hxy
          rw [hxy] at ax
          have := SpiralIter.annulus_unique ax ay
          omega
  refine ⟨it, _, by rw [hit]; exact spiral_newM hrd h ht hm hc hci hr hR, hv, ?_, hpw.imp (fun h => h.2),
    hpw.imp (fun h => h.1), ?_⟩
  · intro hR2
    obtain ⟨-, b3, -⟩ := rings_bounds hrd hr h.res_pos (N := 46000) (by norm_num) (by exact_mod_cast hR2)
    have hn2 : it.nRings ≤ 46001 := by rw [hn]; exact b3
    obtain ⟨R, hRd⟩ : ∃ R : Idx → K, R = fun i => rd (((Nat.sqrt ((i - it.indexCenter).x * (i - it.indexCenter).x +
        (i - it.indexCenter).y * (i - it.indexCenter).y).toNat : Nat) : K) * it.resolution) := ⟨_, rfl⟩
    have hRe : ∀ d i, InAnnulus d (i - it.indexCenter) → R i = rd ((d : K) * it.resolution) := by
      intro d i hd
      have : normIs d (i - it.indexCenter).x (i - it.indexCenter).y = true := normIs_iff.mpr hd
      simp only [normIs, decide_eq_true_eq] at this
      rw [hRd]; simp only [this]
    have hv2 := SpiralIter.visitsM hi hs ok (SpiralIter.opsRadiusM rd sqrt).deref (fun i => (i, R i))
      (fun i => ∃ d : Nat, d ≤ 46339 ∧ InAnnulus d (i - it.indexCenter)) (by
        rintro k i ps ⟨d, hd, ha⟩
        simp only [SpiralIter.opsRadiusM, SpiralIter.getCurrentRadiusM_eq hs hd ha k ps, hRe d i ha]
        rfl) it.nRings 0
      [(m.getIndexRd rd center).1] (by omega) (Or.inl (by simp)) hne (by
        intro i hi'
        rw [List.mem_singleton.mp hi']
        exact ⟨0, by omega, by rw [hcen]; exact annulus_self _⟩) (by
        intro d h1 h2 i hi'
        exact ⟨d, by omega, by rw [hcen]; exact ((hmem d h1 i).mp hi').1⟩)
    rw [hat] at hv2
    refine ⟨_, hv2, by rw [List.map_map]; exact List.map_id _, ?_⟩
    intro i r hir
    obtain ⟨j, -, hj⟩ := List.mem_map.mp hir
    cases hj
    obtain ⟨d, hd⟩ := SpiralIter.annulus_exists (i - it.indexCenter)
    refine ⟨d, by rw [← hcen]; exact hd, ?_⟩
    rw [hRe d i hd, hit]; rfl
  · intro i
    rw [List.singleton_append, List.mem_cons, List.mem_flatMap]
    constructor
    · rintro (rfl | ⟨d, hd, hi⟩)
      · exact Or.inl rfl
      · rw [List.mem_range'_1] at hd
        obtain ⟨ha, p, hp, hdist⟩ := (hmem d (by omega) i).mp hi
        exact Or.inr ⟨d, p, by omega, by omega, ha, hp, hdist⟩
    · rintro (rfl | ⟨d, p, h1, h2, ha, hp, hdist⟩)
      · exact Or.inl rfl
      · exact Or.inr ⟨d, by rw [List.mem_range'_1]; omega, (hmem d h1 i).mpr ⟨ha, p, hp, hdist⟩⟩

/-! ## Distances -/

/-- The triangle inequality, for squares. -/
theorem tri {a b c d A B : K} (h1 : a ^ 2 + b ^ 2 ≤ A ^ 2) (h2 : c ^ 2 + d ^ 2 ≤ B ^ 2) (hA : 0 ≤ A) (hB : 0 ≤ B) :
    (a + c) ^ 2 + (b + d) ^ 2 ≤ (A + B) ^ 2 := by
  have hdot : a * c + b * d ≤ A * B := by
    refine le_of_abs_le (abs_le_of_sq_le_sq ?_ (mul_nonneg hA hB))
    have e : (a * c + b * d) ^ 2 + (a * d - b * c) ^ 2 = (a ^ 2 + b ^ 2) * (c ^ 2 + d ^ 2) := by ring
    have e2 : (a ^ 2 + b ^ 2) * (c ^ 2 + d ^ 2) ≤ A ^ 2 * B ^ 2 :=
      mul_le_mul h1 h2 (add_nonneg (sq_nonneg c) (sq_nonneg d)) (sq_nonneg A)
    have e3 := sq_nonneg (a * d - b * c)
    have e4 : (A * B) ^ 2 = A ^ 2 * B ^ 2 := by ring
    linarith
  nlinarith

/-- The offset of the centre of cell `u` from a point in cell `v`, along one axis. -/
theorem Axis.offset {rd : K → K} {n : Int} {pos len r T : K} (h : Axis rd n pos len r T) (hrd : DoublePrecision rd) {c : K}
    (h0 : 0 ≤ fromBorderRd rd c len pos) (h1 : fromBorderRd rd c len pos < len) :
    ∃ e, |e| ≤ r / 2 + 17 * (T / 2 ^ 53) ∧ e = pos + n * r / 2 - c - r / 2 - r * (cellRd rd c len pos r : K) ∧
      ∀ u : Int, 0 ≤ u → u < n →
      |centreRd rd u len pos r - c - (e - r * ((u - cellRd rd c len pos r : Int) : K))| ≤ 13 * (T / 2 ^ 53) := by
  obtain ⟨-, -, c3, c4, -⟩ := h.cell_near hrd h0 h1
  have hU := h.unit_nonneg
  refine ⟨_, ?_, rfl, ?_⟩
  · rw [abs_le]
    constructor <;> linarith
  · intro u hu hu'
    have := h.centre_err hrd hu hu'
    convert this using 2
    push_cast; ring

/-- The same on a map: the vector from `center` to the centre of a cell is the offset of the cell from the central cell, plus at
most 17/32 of a cell along each axis. -/
theorem spiral_offsetRd {rd : K → K} (hrd : DoublePrecision rd) {m : CostMap K} (h : m.GeoRd rd) (ht : m.Tame43)
    (h0 : m.startIndex = 0) {center : Vec K} (hc : m.isInsideRd rd center = true) {i : Idx} {p : Vec K}
    (hp : m.getPositionRd rd i = some p) :
    |p.x - center.x + m.resolution * ((i - (m.getIndexRd rd center).1).x : K)| ≤ 17 / 32 * m.resolution ∧
    |p.y - center.y + m.resolution * ((i - (m.getIndexRd rd center).1).y : K)| ≤ 17 / 32 * m.resolution := by
  have hi := getPositionRd_in hp
  rw [getPositionRd_eq hi, h0] at hp
  have hu : unwrapIdx i m.size 0 = i := by simp [unwrapIdx]
  rw [hu] at hp
  cases hp
  obtain ⟨i1, i2, i3, i4⟩ := hi
  have e : (m.getIndexRd rd center).1 = ⟨cellRd rd center.x m.length.x m.position.x m.resolution,
      cellRd rd center.y m.length.y m.position.y m.resolution⟩ := by
    unfold getIndexRd indexFromPositionRd; rw [h0]; simp [bufferIdx]
  simp only [isInsideRd, withinMapRd, decide_eq_true_eq, Bool.and_eq_true] at hc
  obtain ⟨⟨⟨x0, y0⟩, x1⟩, y1⟩ := hc
  have ax := axis43_x h ht
  have ay := axis43_y h ht
  obtain ⟨ex, bx, -, fx⟩ := ax.offset hrd x0 x1
  obtain ⟨ey, byy, -, fy⟩ := ay.offset hrd y0 y1
  have ux := tame_unit ax ht.x
  have uy := tame_unit ay ht.y
  have gx := fx i.x i1 i2
  have gy := fy i.y i3 i4
  have vx := ax.unit_nonneg
  have vy := ay.unit_nonneg
  rw [e]
  simp only [Idx.sub_x, Idx.sub_y]
  simp only [abs_le] at bx byy gx gy ⊢
  obtain ⟨bx1, bx2⟩ := bx
  obtain ⟨by1, by2⟩ := byy
  obtain ⟨gx1, gx2⟩ := gx
  obtain ⟨gy1, gy2⟩ := gy
  refine ⟨⟨?_, ?_⟩, ?_, ?_⟩ <;> linarith

theorem half_cell {a b r : K} (h1 : |a| ≤ 17 / 32 * r) (h2 : |b| ≤ 17 / 32 * r) : a ^ 2 + b ^ 2 ≤ (13 / 16 * r) ^ 2 := by
  have a2 : a ^ 2 ≤ (17 / 32 * r) ^ 2 := by rw [← sq_abs]; exact pow_le_pow_left₀ (abs_nonneg _) h1 2
  have b2 : b ^ 2 ≤ (17 / 32 * r) ^ 2 := by rw [← sq_abs]; exact pow_le_pow_left₀ (abs_nonneg _) h2 2
  have := sq_nonneg r
  nlinarith

/-- A cell within the radius is in one of the walked rings. -/
theorem ring_le_of_distRd {r wx wy R : K} {n d : Nat} {o : Idx} (hr : 0 < r) (hx : |wx + r * (o.x : K)| ≤ 17 / 32 * r)
    (hy : |wy + r * (o.y : K)| ≤ 17 / 32 * r) (hR0 : 0 ≤ R) (hR : R ≤ (n + 1 / 8) * r) (hd : InAnnulus d o)
    (hw : wx ^ 2 + wy ^ 2 ≤ R ^ 2) : d ≤ n := by
  by_contra hc
  have hd1 := hd.1
  have hnd : ((n : Int) + 1) ^ 2 ≤ o.x ^ 2 + o.y ^ 2 :=
    le_trans (pow_le_pow_left₀ (by omega) (by omega) 2) hd1
  have hndK : ((n : K) + 1) ^ 2 ≤ (o.x : K) ^ 2 + (o.y : K) ^ 2 := by exact_mod_cast hnd
  have t := tri (half_cell hx hy) (c := -wx) (d := -wy) (B := R) (by rw [neg_sq, neg_sq]; exact hw) (by positivity) hR0
  have e1 : wx + r * (o.x : K) + -wx = r * o.x := by ring
  have e2 : wy + r * (o.y : K) + -wy = r * o.y := by ring
  rw [e1, e2] at t
  have t2 : (13 / 16 * r + R) ^ 2 ≤ ((n + 15 / 16) * r) ^ 2 := pow_le_pow_left₀ (by positivity) (by linarith) 2
  have t3 : (((n : K) + 1) * r) ^ 2 ≤ (r * o.x) ^ 2 + (r * o.y) ^ 2 := by
    have := mul_le_mul_of_nonneg_right hndK (sq_nonneg r)
    calc (((n : K) + 1) * r) ^ 2 = (n + 1) ^ 2 * r ^ 2 := by ring
      _ ≤ _ := this
      _ = _ := by ring
  have t4 : ((n + 15 / 16 : K) * r) ^ 2 < (((n : K) + 1) * r) ^ 2 :=
    pow_lt_pow_left₀ (mul_lt_mul_of_pos_right (by linarith) hr) (by positivity) (by norm_num)
  linarith

/-- A cell on ring `d` is less than `d + 1` cells, and a part of one, away. -/
theorem dist_of_ringRd {r wx wy : K} {d : Nat} {o : Idx} (hr : 0 < r) (hx : |wx + r * (o.x : K)| ≤ 17 / 32 * r)
    (hy : |wy + r * (o.y : K)| ≤ 17 / 32 * r) (hd : InAnnulus d o) {R : K} (hR : (d + 1) * r ≤ R) :
    wx ^ 2 + wy ^ 2 ≤ (13 / 16 * r + R) ^ 2 := by
  have hd2 : (o.x : K) ^ 2 + (o.y : K) ^ 2 ≤ ((d : K) + 1) ^ 2 := by exact_mod_cast hd.2.le
  have hR0 : 0 ≤ R := le_trans (by positivity) hR
  have t := tri (half_cell hx hy) (c := -(r * o.x)) (d := -(r * o.y)) (B := R) (by
    have := mul_le_mul_of_nonneg_right hd2 (sq_nonneg r)
    calc (-(r * (o.x : K))) ^ 2 + (-(r * (o.y : K))) ^ 2 = ((o.x : K) ^ 2 + (o.y : K) ^ 2) * r ^ 2 := by ring
      _ ≤ _ := this
      _ = ((d + 1) * r) ^ 2 := by ring
      _ ≤ _ := pow_le_pow_left₀ (by positivity) hR 2) (by positivity) hR0
  have e1 : wx + r * (o.x : K) + -(r * o.x) = wx := by ring
  have e2 : wy + r * (o.y : K) + -(r * o.y) = wy := by ring
  rwa [e1, e2] at t

/-- C81 (partial: maps whose buffer was never rotated, as in C23, and radii of at most `2^23` cells; every ring before the last must
have a cell to visit, the last but one a cell that is within the radius by a margin). The loop ends without undefined
behaviour, visits no cell twice, only visits cells of the map, in the order of the rings, visits every cell whose computed centre
is within the radius by a margin of the rounding errors, and no cell that is more than one cell farther away than the radius. -/
theorem C81_spiral_partial {rd sqrt : K → K} (hrd : DoublePrecision rd) (hi : IntsExact rd) (hs : SqrtInts sqrt) {m : CostMap K}
    (h : m.GeoRd rd) (ht : m.Tame43) (hm : m.Small) (h0 : m.startIndex = 0) {center : Vec K}
    (hc : m.isInsideRd rd center = true) (hci : (m.getIndexRd rd center).1.In m.size) {radius : K} (hr : 0 ≤ radius)
    (hR : radius ≤ 2 ^ 23 * m.resolution) (hrings : RingsReachRd rd m center radius) :
    ∃ it xs, SpiralIter.newM rd sqrt m center radius = .ok it ∧ Visits (SpiralIter.opsM rd sqrt) it xs ∧ xs.Nodup ∧
      (∀ i ∈ xs, i.In m.size) ∧
      (∀ i p, m.getPositionRd rd i = some p → dist2 p center ≤ (1 - 1 / 2 ^ 50) * radius ^ 2 → i ∈ xs) ∧
      (∀ i ∈ xs, ∀ p, m.getPositionRd rd i = some p → dist2 p center ≤ (radius + m.resolution) ^ 2) ∧
      xs.Pairwise (fun i j => ∀ d e, InAnnulus d (i - (m.getIndexRd rd center).1) →
        InAnnulus e (j - (m.getIndexRd rd center).1) → d ≤ e) := by
  obtain ⟨it, xs, h1, h2, -, h3, h4, h5⟩ := spiral_visitsM hrd hi hs h
    ⟨(axis43_x h ht).tame, (axis43_y h ht).tame⟩ hm h0 hc hci hr hR hrings
  have hres := h.res_pos
  have hr2 := sq_nonneg radius
  obtain ⟨-, -, b3, b4⟩ := rings_bounds hrd hr hres (N := 2 ^ 23) le_rfl (by exact_mod_cast hR)
  refine ⟨it, xs, h1, h2, h3, ?_, ?_, ?_, h4⟩
  · intro i hi'
    rcases (h5 i).mp hi' with rfl | ⟨d, p, -, -, -, hp, -⟩
    · exact hci
    · exact getPositionRd_in hp
  · intro i p hp hdist
    obtain ⟨d, hd⟩ := SpiralIter.annulus_exists (i - (m.getIndexRd rd center).1)
    rcases Nat.eq_zero_or_pos d with hd0 | hd0
    · subst hd0
      have := SpiralIter.annulus_zero hd
      refine (h5 i).mpr (Or.inl ?_)
      have e1 := congrArg Idx.x this
      have e2 := congrArg Idx.y this
      simp only [Idx.sub_x, Idx.sub_y, Idx.zero_x, Idx.zero_y] at e1 e2
      exact Idx.ext (by omega) (by omega)
    · obtain ⟨o1, o2⟩ := spiral_offsetRd hrd h ht h0 hc hp
      have hle := ring_le_of_distRd hres o1 o2 hr b3 hd (hdist.trans (by linarith))
      exact (h5 i).mpr (Or.inr ⟨d, p, hd0, hle, hd, hp, fun _ => (circleShapeRd_spec hrd center radius p).2 hdist⟩)
  · intro i hi' p hp
    obtain ⟨o1, o2⟩ := spiral_offsetRd hrd h ht h0 hc hp
    rcases (h5 i).mp hi' with rfl | ⟨d, q, hd1, hdn, ha, hq, hin⟩
    · have e : ((m.getIndexRd rd center).1 - (m.getIndexRd rd center).1) = 0 := by ext <;> simp
      rw [e] at o1 o2
      simp only [Idx.zero_x, Idx.zero_y, Int.cast_zero, mul_zero, add_zero] at o1 o2
      exact (half_cell o1 o2).trans (pow_le_pow_left₀ (by positivity) (by linarith) 2)
    · rw [hp] at hq; cases hq
      by_cases hd : d = spiralRingsRd rd m radius ∨ d + 1 = spiralRingsRd rd m radius
      · have := (circleShapeRd_spec hrd center radius p).1 (hin hd)
        refine this.trans ?_
        have e1 : radius * radius ≤ radius * (2 ^ 23 * m.resolution) := mul_le_mul_of_nonneg_left hR hr
        have e2 : 0 ≤ radius * m.resolution := mul_nonneg hr hres.le
        have e3 := sq_nonneg m.resolution
        nlinarith
      · have hlt := b4 (d + 1) (by unfold spiralRingsRd at hd hdn; omega)
        push_cast at hlt
        have e1 : radius / 2 ^ 53 ≤ m.resolution / 8 := by
          rw [div_le_iff₀ (by positivity)]; linarith
        refine (dist_of_ringRd hres o1 o2 ha hlt.le).trans ?_
        exact pow_le_pow_left₀ (add_nonneg (by positivity) (by positivity)) (by linarith) 2

/-- C81 (partial as above, and radii of at most 46000 cells). In a loop that asks for the current radius, `getCurrentRadius` is the
rounded product of the number of the ring and the cell size. -/
theorem C81_current_radius_partial {rd sqrt : K → K} (hrd : DoublePrecision rd) (hi : IntsExact rd) (hs : SqrtInts sqrt)
    {m : CostMap K} (h : m.GeoRd rd) (ht : m.Tame43) (hm : m.Small) (h0 : m.startIndex = 0) {center : Vec K}
    (hc : m.isInsideRd rd center = true) (hci : (m.getIndexRd rd center).1.In m.size) {radius : K} (hr : 0 ≤ radius)
    (hR : radius ≤ 46000 * m.resolution) (hrings : RingsReachRd rd m center radius) :
    ∃ it xs rs, SpiralIter.newM rd sqrt m center radius = .ok it ∧ Visits (SpiralIter.opsM rd sqrt) it xs ∧
      Visits (SpiralIter.opsRadiusM rd sqrt) it rs ∧ rs.map Prod.fst = xs ∧
      ∀ i r, (i, r) ∈ rs → ∃ d : Nat, InAnnulus d (i - (m.getIndexRd rd center).1) ∧ r = rd ((d : K) * m.resolution) := by
  have hres := h.res_pos
  obtain ⟨it, xs, h1, h2, h3, -⟩ := spiral_visitsM hrd hi hs h ⟨(axis43_x h ht).tame, (axis43_y h ht).tame⟩ hm h0 hc hci hr
    (hR.trans (mul_le_mul_of_nonneg_right (by norm_num) hres.le)) hrings
  obtain ⟨rs, h4, h5, h6⟩ := h3 hR
  exact ⟨it, xs, rs, h1, h2, h4, h5, h6⟩

/-! ## Circles with room around them -/

/-- One axis: with room for the radius and a cell, the cells at distance `d` from the central one are on the map. -/
theorem Axis.room {rd : K → K} {n : Int} {pos len r T : K} (h : Axis rd n pos len r T) (hrd : DoublePrecision rd)
    (ht : 1024 * (T / 2 ^ 53) ≤ r) {c rho : K} (hroom : |c - pos| + (rho + r) ≤ len / 2) (hrho : 0 ≤ rho) :
    0 ≤ fromBorderRd rd c len pos ∧ fromBorderRd rd c len pos < len ∧
    rho - 12 * (T / 2 ^ 53) ≤ (cellRd rd c len pos r : K) * r ∧
    (cellRd rd c len pos r : K) * r + rho ≤ n * r - r + 20 * (T / 2 ^ 53) ∧ rho ≤ T := by
  have hU := h.unit_nonneg
  have hr := h.r_pos
  have hl := abs_le.mp (h.len_err hrd)
  have ha := abs_le.mp (show |c - pos| ≤ len / 2 - (rho + r) by linarith)
  obtain ⟨i1, i2⟩ := h.inside_of hrd (p := c) (by linarith) (by linarith)
  obtain ⟨-, -, c3, c4, -⟩ := h.cell_near hrd i1 i2
  have hp := h.pos_le
  have := abs_nonneg pos
  have := abs_nonneg (c - pos)
  have := h.nr_pos
  exact ⟨i1, i2, by linarith, by linarith, by linarith⟩

theorem annulus_axis {d : Nat} {s : Int} (hs : s ^ 2 = 1) : InAnnulus d ⟨s * d, 0⟩ ∧ InAnnulus d ⟨0, s * d⟩ := by
  have h0 : (0 : Int) ≤ d := by omega
  have e : (s * d) ^ 2 = (d : Int) ^ 2 := by rw [mul_pow, hs, one_mul]
  refine ⟨⟨?_, ?_⟩, ⟨?_, ?_⟩⟩ <;> simp only [e] <;> nlinarith

/-- Along the axis where the point is farther from the centre of its cell, there is a cell at distance `d` that is not farther
than `d` cells from the point. -/
theorem pick_cell {r a b : K} (d : Nat) (ha : |a| ≤ d * r) (hab : b ^ 2 ≤ a ^ 2) :
    ∃ s : Int, s ^ 2 = 1 ∧ (a - r * ((s * d : Int) : K)) ^ 2 + b ^ 2 ≤ (d * r) ^ 2 := by
  rw [abs_le] at ha
  by_cases h : 0 ≤ a
  · refine ⟨1, by norm_num, ?_⟩
    push_cast
    nlinarith [mul_nonneg h (by linarith : 0 ≤ d * r - a)]
  · refine ⟨-1, by norm_num, ?_⟩
    push_cast
    nlinarith [mul_nonneg (by linarith : 0 ≤ -a) (by linarith : 0 ≤ d * r + a)]

/-- With room for the radius and one cell around the centre, and a radius that is clear of whole numbers of cells, every ring
contributes. -/
theorem ringsReachRd_of_room {rd : K → K} (hrd : DoublePrecision rd) {m : CostMap K} (h : m.GeoRd rd) (ht : m.Tame43)
    (h0 : m.startIndex = 0) {center : Vec K} {radius : K} (hr : 0 ≤ radius) (hR : radius ≤ 2 ^ 23 * m.resolution)
    (hroom : m.RoomFor center (radius + m.resolution)) (hclear : m.ClearOfCells radius) :
    m.isInsideRd rd center = true ∧ (m.getIndexRd rd center).1.In m.size ∧ RingsReachRd rd m center radius := by
  have hres := h.res_pos
  have ax := axis43_x h ht
  have ay := axis43_y h ht
  have ux := tame_unit ax ht.x
  have uy := tame_unit ay ht.y
  have vx := ax.unit_nonneg
  have vy := ay.unit_nonneg
  obtain ⟨x1, x2, x3, x4, x5⟩ := ax.room hrd ux hroom.x hr
  obtain ⟨y1, y2, y3, y4, y5⟩ := ay.room hrd uy hroom.y hr
  obtain ⟨ex, bx, -, fx⟩ := ax.offset hrd x1 x2
  obtain ⟨ey, byy, -, fy⟩ := ay.offset hrd y1 y2
  obtain ⟨-, -, -, b4⟩ := rings_bounds hrd hr hres (N := 2 ^ 23) le_rfl (by exact_mod_cast hR)
  have e : (m.getIndexRd rd center).1 = ⟨cellRd rd center.x m.length.x m.position.x m.resolution,
      cellRd rd center.y m.length.y m.position.y m.resolution⟩ := by
    unfold getIndexRd indexFromPositionRd; rw [h0]; simp [bufferIdx]
  rw [RingsReachRd, e]
  generalize cellRd rd center.x m.length.x m.position.x m.resolution = cx at *
  generalize cellRd rd center.y m.length.y m.position.y m.resolution = cy at *
  obtain ⟨Ux, hUx⟩ : ∃ U, U = extent m.size.x m.position.x m.resolution / 2 ^ 53 := ⟨_, rfl⟩
  obtain ⟨Uy, hUy⟩ : ∃ U, U = extent m.size.y m.position.y m.resolution / 2 ^ 53 := ⟨_, rfl⟩
  have tolU : 4 * (m.tolX + m.tolY) = 128 * (Ux + Uy) := by
    unfold tolX tolY; rw [hUx, hUy]; ring
  have Tx : extent m.size.x m.position.x m.resolution = 2 ^ 53 * Ux := by rw [hUx]; field_simp
  have Ty : extent m.size.y m.position.y m.resolution = 2 ^ 53 * Uy := by rw [hUy]; field_simp
  unfold ClearOfCells at hclear
  rw [tolU] at hclear
  rw [Tx] at x5
  rw [Ty] at y5
  rw [← hUx] at ux vx x3 x4 bx fx
  rw [← hUy] at uy vy y3 y4 byy fy
  have hUpos : 0 < Ux := by rw [hUx]; exact div_pos ax.T_pos (by positivity)
  -- the cells at distance d along an axis are on the map
  have range : ∀ (d : Nat), (d : K) * m.resolution + 128 * (Ux + Uy) ≤ radius →
      (d : Int) ≤ cx ∧ cx + d < m.size.x ∧ (d : Int) ≤ cy ∧ cy + d < m.size.y := by
    intro d hd
    refine ⟨?_, ?_, ?_, ?_⟩
    · have : (d : K) * m.resolution < (cx : K) * m.resolution := by linarith
      have := lt_of_mul_lt_mul_right this hres.le
      have : (d : Int) < cx := by exact_mod_cast this
      omega
    · have : ((cx : K) + d) * m.resolution < (m.size.x : K) * m.resolution := by linarith
      have := lt_of_mul_lt_mul_right this hres.le
      exact_mod_cast this
    · have : (d : K) * m.resolution < (cy : K) * m.resolution := by linarith
      have := lt_of_mul_lt_mul_right this hres.le
      have : (d : Int) < cy := by exact_mod_cast this
      omega
    · have : ((cy : K) + d) * m.resolution < (m.size.y : K) * m.resolution := by linarith
      have := lt_of_mul_lt_mul_right this hres.le
      exact_mod_cast this
  have clear0 : (0 : Nat) * m.resolution + 128 * (Ux + Uy) ≤ radius := by
    rcases hclear 0 with h1 | h1
    · exact h1
    · simp only [Nat.cast_zero, zero_mul] at h1
      linarith
  obtain ⟨r1, r2, r3, r4⟩ := range 0 clear0
  refine ⟨?_, ⟨by simp only; omega, by simp only; omega, by simp only; omega, by simp only; omega⟩, ?_⟩
  · simp only [isInsideRd, withinMapRd, decide_eq_true_eq, Bool.and_eq_true]
    exact ⟨⟨⟨x1, y1⟩, x2⟩, y2⟩
  intro d hd hdn
  have hlt := b4 d hdn
  have hrel : radius / 2 ^ 53 ≤ Ux := by rw [div_le_iff₀ (by positivity)]; linarith
  have hcl : (d : K) * m.resolution + 128 * (Ux + Uy) ≤ radius := by
    rcases hclear d with h1 | h1
    · exact h1
    · linarith
  obtain ⟨d1, d2, d3, d4⟩ := range d hcl
  have hdK : (1 : K) ≤ d := by exact_mod_cast hd
  have hdr : m.resolution ≤ d * m.resolution := by
    have := mul_le_mul_of_nonneg_right hdK hres.le
    linarith
  -- any cell whose exact offset is at most d cells
  have key : ∀ o : Idx, InAnnulus d o → (0 ≤ cx + o.x ∧ cx + o.x < m.size.x ∧ 0 ≤ cy + o.y ∧ cy + o.y < m.size.y) →
      (ex - m.resolution * (o.x : K)) ^ 2 + (ey - m.resolution * (o.y : K)) ^ 2 ≤ (d * m.resolution) ^ 2 →
      ∃ i p, m.getPositionRd rd i = some p ∧ InAnnulus d (i - ⟨cx, cy⟩) ∧
        (d + 1 = spiralRingsRd rd m radius → dist2 p center ≤ (1 - 1 / 2 ^ 50) * radius ^ 2) := by
    rintro o ho ⟨o1, o2, o3, o4⟩ hdist
    have hin : (⟨cx + o.x, cy + o.y⟩ : Idx).In m.size := ⟨o1, o2, o3, o4⟩
    have eo : (⟨cx + o.x, cy + o.y⟩ : Idx) - ⟨cx, cy⟩ = o := by ext <;> simp
    refine ⟨⟨cx + o.x, cy + o.y⟩, _, getPositionRd_eq hin, by rw [eo]; exact ho, fun _ => ?_⟩
    have hu : unwrapIdx (⟨cx + o.x, cy + o.y⟩ : Idx) m.size m.startIndex = ⟨cx + o.x, cy + o.y⟩ := by
      rw [h0]; simp [unwrapIdx]
    rw [hu]
    have gx := fx (cx + o.x) o1 o2
    have gy := fy (cy + o.y) o3 o4
    rw [add_sub_cancel_left] at gx gy
    unfold dist2
    simp only
    generalize centreRd rd (cx + o.x) m.length.x m.position.x m.resolution - center.x = wx at *
    generalize centreRd rd (cy + o.y) m.length.y m.position.y m.resolution - center.y = wy at *
    have t := tri hdist (c := wx - (ex - m.resolution * (o.x : K))) (d := wy - (ey - m.resolution * (o.y : K)))
      (B := 13 * (Ux + Uy)) (by
        have a2 := pow_le_pow_left₀ (abs_nonneg _) gx 2
        have b2 := pow_le_pow_left₀ (abs_nonneg _) gy 2
        rw [sq_abs] at a2 b2
        have := mul_nonneg vx vy
        nlinarith) (by positivity) (by linarith)
    rw [add_sub_cancel, add_sub_cancel] at t
    refine t.trans ?_
    have h8 : radius / 2 ^ 50 ≤ 8 * Ux := by rw [div_le_iff₀ (by positivity)]; linarith
    have h9 : d * m.resolution + 13 * (Ux + Uy) ≤ (1 - 1 / 2 ^ 50) * radius := by
      have : (1 - 1 / 2 ^ 50 : K) * radius = radius - radius / 2 ^ 50 := by ring
      linarith
    have h10 : (d * m.resolution + 13 * (Ux + Uy)) ^ 2 ≤ ((1 - 1 / 2 ^ 50) * radius) ^ 2 :=
      pow_le_pow_left₀ (by linarith) h9 2
    refine h10.trans ?_
    have h11 : ((1 - 1 / 2 ^ 50 : K) * radius) ^ 2 = (1 - 1 / 2 ^ 50) ^ 2 * radius ^ 2 := by ring
    rw [h11]
    exact mul_le_mul_of_nonneg_right (by norm_num) (sq_nonneg radius)
  have hex : |ex| ≤ d * m.resolution := by linarith
  have hey : |ey| ≤ d * m.resolution := by linarith
  have sgn : ∀ s : Int, s ^ 2 = 1 → s = 1 ∨ s = -1 := fun s hs => by simpa using hs
  by_cases hxy : ey ^ 2 ≤ ex ^ 2
  · obtain ⟨s, hs, hle⟩ := pick_cell d hex hxy
    refine key ⟨s * d, 0⟩ (annulus_axis hs).1 ?_ (by simpa using hle)
    rcases sgn s hs with rfl | rfl <;> simp only <;> omega
  · obtain ⟨s, hs, hle⟩ := pick_cell d hey (not_le.mp hxy).le
    refine key ⟨0, s * d⟩ (annulus_axis hs).2 ?_ (by simpa [add_comm] using hle)
    rcases sgn s hs with rfl | rfl <;> simp only <;> omega

/-- C81 (partial: maps whose buffer was never rotated, radii of at most `2^23` cells that are clear of whole numbers of cells). When
the map has room for the radius and one cell around the centre, the loop ends without undefined behaviour, visits no cell twice, only
visits cells of the map, in the order of the rings, visits every cell whose computed centre is within the radius by a margin of the
rounding errors, and no cell that is more than one cell farther away than the radius. -/
theorem C81_spiral_room_partial {rd sqrt : K → K} (hrd : DoublePrecision rd) (hi : IntsExact rd) (hs : SqrtInts sqrt)
    {m : CostMap K} (h : m.GeoRd rd) (ht : m.Tame43) (hm : m.Small) (h0 : m.startIndex = 0) {center : Vec K} {radius : K}
    (hr : 0 ≤ radius) (hR : radius ≤ 2 ^ 23 * m.resolution) (hroom : m.RoomFor center (radius + m.resolution))
    (hclear : m.ClearOfCells radius) :
    ∃ it xs, SpiralIter.newM rd sqrt m center radius = .ok it ∧ Visits (SpiralIter.opsM rd sqrt) it xs ∧ xs.Nodup ∧
      (∀ i ∈ xs, i.In m.size) ∧
      (∀ i p, m.getPositionRd rd i = some p → dist2 p center ≤ (1 - 1 / 2 ^ 50) * radius ^ 2 → i ∈ xs) ∧
      (∀ i ∈ xs, ∀ p, m.getPositionRd rd i = some p → dist2 p center ≤ (radius + m.resolution) ^ 2) ∧
      xs.Pairwise (fun i j => ∀ d e, InAnnulus d (i - (m.getIndexRd rd center).1) →
        InAnnulus e (j - (m.getIndexRd rd center).1) → d ≤ e) := by
  obtain ⟨a, b, c⟩ := ringsReachRd_of_room hrd h ht h0 hr hR hroom hclear
  exact C81_spiral_partial hrd hi hs h ht hm h0 a b hr hR c

/-! ## When the loop ends normally -/

/-- A loop that meets an empty ring before the last does not end normally. -/
theorem visitsM_none {rd sqrt : K → K} (hi : IntsExact rd) (hs : SqrtInts sqrt) {it : SpiralIter K} (ok : it.OkM) {d : Nat}
    (hd : d < it.nRings) (he : it.ringCellsM rd d = []) (hmin : ∀ e, 0 < e → e < d → it.ringCellsM rd e ≠ [])
    {s : SpiralIter K} {xs : List Idx} (hv : Visits (SpiralIter.opsM rd sqrt) s xs) :
    ∀ k ps, s = it.at' k ps → (k < d ∧ ps ≠ []) ∨ (k = d ∧ ps = []) → False := by
  induction hv with
  | done hp =>
    rintro k ps rfl hk
    simp only [SpiralIter.opsM, SpiralIter.isPastEnd, SpiralIter.at', Bool.and_eq_true, decide_eq_true_eq] at hp
    omega
  | step hp hdr hn _ ih =>
    rintro k ps rfl (⟨hk, hps⟩ | ⟨rfl, rfl⟩)
    · cases ps with
      | nil => exact hps rfl
      | cons p ps =>
        have hne : ¬ k = it.nRings := by omega
        cases ps with
        | nil =>
          have hg := SpiralIter.generateRingM_at' (rd := rd) hi hs ok (k := k) (by omega)
          simp only [SpiralIter.opsM, SpiralIter.nextM, SpiralIter.at', SpiralIter.isPastEnd, hne, decide_false,
            List.isEmpty_nil, Bool.false_and, Bool.not_false, Bool.and_self, if_true] at hn
          simp only [SpiralIter.at'] at hg
          rw [hg] at hn
          cases hn
          refine ih (k + 1) (it.ringCellsM rd (k + 1)) rfl ?_
          by_cases hkd : k + 1 = d
          · exact Or.inr ⟨hkd, by rw [hkd]; exact he⟩
          · exact Or.inl ⟨by omega, hmin (k + 1) (by omega) (by omega)⟩
        | cons q qs =>
          simp only [SpiralIter.opsM, SpiralIter.nextM, SpiralIter.at', List.isEmpty_cons, Bool.false_and, Bool.false_eq_true,
            if_false] at hn
          cases hn
          exact ih k (q :: qs) rfl (Or.inl ⟨hk, by simp⟩)
    · simp [SpiralIter.opsM, SpiralIter.deref, SpiralIter.at', Res.ofOption] at hdr

/-- C81. Exactly when every ring before the last contributes a cell (the last but one: a cell that passes the computed test), the loop
ends normally. Otherwise it dereferences an empty vector. -/
theorem C81_ends_iff {rd sqrt : K → K} (hrd : DoublePrecision rd) (hi : IntsExact rd) (hs : SqrtInts sqrt) {m : CostMap K}
    (h : m.GeoRd rd) (ht : m.Tame) (hm : m.Small) (h0 : m.startIndex = 0) {center : Vec K}
    (hc : m.isInsideRd rd center = true) (hci : (m.getIndexRd rd center).1.In m.size) {radius : K} (hr : 0 ≤ radius)
    (hR : radius ≤ 2 ^ 23 * m.resolution) :
    ∃ it, SpiralIter.newM rd sqrt m center radius = .ok it ∧
      ((∃ xs, Visits (SpiralIter.opsM rd sqrt) it xs) ↔
        ∀ d, 1 ≤ d → d < spiralRingsRd rd m radius → ∃ i p, m.getPositionRd rd i = some p ∧
          InAnnulus d (i - (m.getIndexRd rd center).1) ∧
          (d + 1 = spiralRingsRd rd m radius → circleShapeRd rd center radius p = true)) := by
  refine ⟨_, spiral_newM hrd h ht hm hc hci hr hR, ?_⟩
  obtain ⟨it, hit⟩ : ∃ it, it = spiralInitRd rd m center radius := ⟨_, rfl⟩
  have hn : it.nRings = spiralRingsRd rd m radius := by rw [hit]; rfl
  have hcen : it.indexCenter = (m.getIndexRd rd center).1 := by rw [hit]; rfl
  have hat : it.at' 0 [(m.getIndexRd rd center).1] = it := by rw [hit]; rfl
  obtain ⟨-, b2, -⟩ := rings_bounds hrd hr h.res_pos (N := 2 ^ 23) le_rfl (by exact_mod_cast hR)
  have ok : it.OkM := by
    rw [hit]
    exact ⟨hm.x, hm.y, by show spiralRingsRd rd m radius ≤ 2 ^ 24; unfold spiralRingsRd; omega, hci⟩
  have hmem : ∀ d, 1 ≤ d → d < it.nRings → (it.ringCellsM rd d ≠ [] ↔ ∃ i p, m.getPositionRd rd i = some p ∧
      InAnnulus d (i - (m.getIndexRd rd center).1) ∧
      (d + 1 = spiralRingsRd rd m radius → circleShapeRd rd center radius p = true)) := by
    intro d hd hdn
    rw [hn] at hdn
    have hex : it.ringCellsM rd d ≠ [] ↔ ∃ i, i ∈ it.ringCellsM rd d :=
      ⟨List.exists_mem_of_ne_nil _, fun ⟨i, hi'⟩ => List.ne_nil_of_mem hi'⟩
    rw [hex]
    refine exists_congr fun i => ?_
    rw [SpiralIter.mem_ringCellsM it hd, hcen, hit, keepRd_iff h0]
    constructor
    · rintro ⟨ha, p, hp, hin⟩
      exact ⟨p, hp, ha, fun e => hin (Or.inr e)⟩
    · rintro ⟨p, hp, ha, hin⟩
      exact ⟨ha, p, hp, by
        rintro (e | e)
        · omega
        · exact hin e⟩
  rw [← hit]
  constructor
  · rintro ⟨xs, hv⟩ d hd hdn
    rw [← hn] at hdn
    rw [← hmem d hd hdn]
    induction d using Nat.strong_induction_on with
    | _ d ih =>
      intro he
      exact visitsM_none hi hs ok hdn he (fun e h1 h2 => ih e h2 h1 (by omega)) hv 0 [(m.getIndexRd rd center).1] hat.symm
        (Or.inl ⟨hd, by simp⟩)
  · intro hall
    have hv := SpiralIter.visitsM hi hs ok SpiralIter.deref id (fun _ => True) (fun _ _ _ _ => rfl) it.nRings 0
      [(m.getIndexRd rd center).1] (by omega) (Or.inl (by simp))
      (fun d h1 h2 => (hmem d h1 h2).mpr (hall d h1 (by rw [← hn]; exact h2)))
      (fun _ _ => trivial) (fun _ _ _ _ _ => trivial)
    rw [hat] at hv
    exact ⟨_, hv⟩

/-! ## Counterexamples -/

namespace Demo

/-- A map of 21 by 21 cells of 0.1 around (10, 10), as computed with `double`s. -/
def ten : CostMap ℚ :=
  (CostMap.setGeometryRd toDouble ⟨toDouble (21 / 10), toDouble (21 / 10)⟩ (toDouble (1 / 10)) ⟨10, 10⟩ (CostMap.new ["a"])).2

theorem ten_geo : ten.GeoRd toDouble where
  res_pos := by decide +kernel
  size_x := by decide +kernel
  size_y := by decide +kernel
  len_x := by decide +kernel
  len_y := by decide +kernel
  start := by decide +kernel

theorem ten_tame : ten.Tame43 := ⟨by decide +kernel, by decide +kernel⟩
theorem ten_small : ten.Small := ⟨by decide +kernel, by decide +kernel⟩

/-- A map of 100001 cells in a column, without layers. -/
def column : CostMap ℚ := (CostMap.setGeometryRd toDouble ⟨100001, 1⟩ 1 ⟨0, 0⟩ (CostMap.new [])).2

theorem column_geo : column.GeoRd toDouble where
  res_pos := by decide +kernel
  size_x := by decide +kernel
  size_y := by decide +kernel
  len_x := by decide +kernel
  len_y := by decide +kernel
  start := by decide +kernel

theorem column_tame : column.Tame43 := ⟨by decide +kernel, by decide +kernel⟩
theorem column_small : column.Small := ⟨by decide +kernel, by decide +kernel⟩

end Demo

/-- D35. Without the condition that the radius is clear of whole numbers of cells the loop may run into undefined behaviour, in the
middle of a map with ample room: on a map of 21 by 21 cells of 0.1 around (10, 10), with centre (9.5, 9.5) and radius `3 * 0.1`,
no loop over the iterator ends normally. The quotient of radius and cell size is rounded up to four rings, but no cell of the
third ring passes the test, so the loop dereferences an empty vector. -/
theorem C81_false_on_whole_cells :
    Demo.ten.RoomFor ⟨19 / 2, 19 / 2⟩ (toDouble (3 * toDouble (1 / 10)) + Demo.ten.resolution) ∧
    ∃ it, SpiralIter.newM toDouble sqrtDouble Demo.ten ⟨19 / 2, 19 / 2⟩ (toDouble (3 * toDouble (1 / 10))) = .ok it ∧
      ¬ ∃ xs, Visits (SpiralIter.opsM toDouble sqrtDouble) it xs := by
  refine ⟨⟨by decide +kernel, by decide +kernel⟩, _, spiral_newM C73_double Demo.ten_geo
    ⟨by decide +kernel, by decide +kernel⟩ Demo.ten_small (by decide +kernel) (by decide +kernel) (by decide +kernel)
    (by decide +kernel), ?_⟩
  rintro ⟨xs, hv⟩
  refine visitsM_none (d := 3) C81_double.1 C81_double.2
    (it := spiralInitRd toDouble Demo.ten ⟨19 / 2, 19 / 2⟩ (toDouble (3 * toDouble (1 / 10))))
    ⟨by decide +kernel, by decide +kernel, by decide +kernel, by decide +kernel⟩ (by decide +kernel) (by decide +kernel) ?_ hv
    0 [⟨15, 15⟩] (by decide +kernel) (Or.inl ⟨by norm_num, by simp⟩)
  intro e h1 h2
  rcases (by omega : e = 1 ∨ e = 2) with rfl | rfl
  · decide +kernel
  · decide +kernel

theorem indexCenter_next {rd sqrt : K → K} {s s' : SpiralIter K} (h : s.nextM rd sqrt = .ok s') :
    s'.indexCenter = s.indexCenter := by
  unfold SpiralIter.nextM at h
  split at h
  · cases h
  · simp only at h
    split at h
    · unfold SpiralIter.generateRingM at h
      simp only at h
      revert h
      cases Res.ofOption (i32 (((s.distance + 1) % 4294967296 : Nat) : Int)) with
      | ok x =>
        simp only [Res.bind]
        split
        · intro h; cases h; rfl
        all_goals intro h; cases h
      | _ => intro h; cases h
    · cases h; rfl

/-- A loop that asks for the radius at a cell that is 46341 or more cells away along an axis does not end normally. -/
theorem radius_overflow {rd sqrt : K → K} {c : Idx} {s : SpiralIter K} {xs : List Idx}
    (hv : Visits (SpiralIter.opsM rd sqrt) s xs) (hc : s.indexCenter = c) {i : Idx} (hi : i ∈ xs)
    (hfar : 46341 ≤ i.x - c.x) {rs : List (Idx × K)} (hr : Visits (SpiralIter.opsRadiusM rd sqrt) s rs) : False := by
  induction hv generalizing rs with
  | done h => cases hi
  | @step s s' x xs hp hd hn hv' ih =>
    cases hr with
    | done h =>
      have : (SpiralIter.opsRadiusM rd sqrt).isPastEnd s = (SpiralIter.opsM rd sqrt).isPastEnd s := rfl
      rw [this, hp] at h; cases h
    | @step _ t y ys hp' hd' hn' hv'' =>
      have hn2 : (SpiralIter.opsM rd sqrt).next s = .ok t := hn'
      rw [hn] at hn2
      cases hn2
      rcases List.mem_cons.mp hi with rfl | hi'
      · have hd2 : s.deref = .ok i := hd
        simp only [SpiralIter.opsRadiusM, SpiralIter.getCurrentRadiusM, hd2, Res.bind, hc] at hd'
        have : Res.ofOption ((I32.both I32.sub i c).bind fun o => (I32.mul o.x o.x)) = .ub := by
          unfold I32.both I32.sub I32.mul
          by_cases h1 : i.x - c.x < 2147483648
          · rw [i32_eq (by omega) h1]
            simp only [Option.bind_some]
            cases i32 (i.y - c.y) with
            | none => rfl
            | some z =>
              simp only [Option.bind_some]
              rw [i32_none (Or.inr (by nlinarith))]
              rfl
          · rw [i32_none (Or.inr (by omega))]; rfl
        revert this hd'
        cases I32.both I32.sub i c with
        | none => intro hd' _; cases hd'
        | some o =>
          simp only [Option.bind_some, Res.ofOption]
          cases I32.mul o.x o.x with
          | none => intro hd' _; cases hd'
          | some z => intro _ h; cases h
      · exact ih ((indexCenter_next hn).trans hc) hi' hv''

/-- D36. On a map with rings beyond the 46340th, a loop that does not ask for the current radius ends normally, but one that does
overflows an `int` when it squares the offset of a cell. -/
theorem C81_false_current_radius :
    ∃ it xs, SpiralIter.newM toDouble sqrtDouble Demo.column ⟨0, 0⟩ 47000 = .ok it ∧
      Visits (SpiralIter.opsM toDouble sqrtDouble) it xs ∧ ¬ ∃ rs, Visits (SpiralIter.opsRadiusM toDouble sqrtDouble) it rs := by
  have hn : spiralRingsRd toDouble Demo.column 47000 = 47000 := by decide +kernel
  have hc : (Demo.column.getIndexRd toDouble ⟨0, 0⟩).1 = ⟨50000, 0⟩ := by decide +kernel
  have hs : Demo.column.size = ⟨100001, 1⟩ := by decide +kernel
  have hin : ∀ d : Nat, d ≤ 47000 → (⟨50000 + d, 0⟩ : Idx).In Demo.column.size := by
    intro d hd
    rw [hs]
    exact ⟨by simp only; omega, by simp only; omega, by simp only; omega, by simp only; omega⟩
  have hoff : ∀ d : Nat, InAnnulus d ((⟨50000 + d, 0⟩ : Idx) - ⟨50000, 0⟩) := by
    intro d
    have e : (⟨50000 + d, 0⟩ : Idx) - ⟨50000, 0⟩ = ⟨1 * d, 0⟩ := by ext <;> simp
    rw [e]
    exact (annulus_axis (by norm_num)).1
  have hpos : ∀ d : Nat, d ≤ 47000 → ∃ p, Demo.column.getPositionRd toDouble ⟨50000 + d, 0⟩ = some p :=
    fun d hd => ⟨_, getPositionRd_eq (hin d hd)⟩
  obtain ⟨it, xs, h1, h2, -, -, h3, -⟩ := C81_spiral_partial C73_double C81_double.1 C81_double.2 Demo.column_geo
    Demo.column_tame Demo.column_small (by decide +kernel) (center := ⟨0, 0⟩) (radius := 47000) (by decide +kernel)
    (by decide +kernel) (by norm_num) (by decide +kernel) (by
      intro d hd hdn
      rw [hn] at hdn ⊢
      rw [hc]
      obtain ⟨p, hp⟩ := hpos d (by omega)
      refine ⟨_, p, hp, hoff d, ?_⟩
      intro e
      have e' : d = 46999 := by omega
      subst e'
      have : Demo.column.getPositionRd toDouble ⟨50000 + (46999 : Nat), 0⟩ = some ⟨-46999, 0⟩ := by decide +kernel
      rw [this] at hp
      cases hp
      norm_num [dist2])
  refine ⟨it, xs, h1, h2, ?_⟩
  rintro ⟨rs, hr⟩
  have hmem : (⟨50000 + (46341 : Nat), 0⟩ : Idx) ∈ xs := by
    refine h3 _ ⟨-46341, 0⟩ (by decide +kernel) ?_
    norm_num [dist2]
  have hcen : it.indexCenter = ⟨50000, 0⟩ := by
    rw [spiral_newM C73_double Demo.column_geo ⟨by decide +kernel, by decide +kernel⟩ Demo.column_small (by decide +kernel)
      (by decide +kernel) (by norm_num) (by decide +kernel)] at h1
    cases h1
    exact hc
  exact radius_overflow h2 hcen hmem (by norm_num) hr

/-! ## Examples -/

example : ∃ it xs, SpiralIter.newM toDouble sqrtDouble Demo.ten ⟨19 / 2, 19 / 2⟩ (1 / 4) = .ok it ∧
    Visits (SpiralIter.opsM toDouble sqrtDouble) it xs ∧ (⟨15, 13⟩ : Idx) ∈ xs := by
  obtain ⟨it, xs, h1, h2, -, -, h3, -⟩ := C81_spiral_partial C73_double C81_double.1 C81_double.2 Demo.ten_geo Demo.ten_tame
    Demo.ten_small (by decide +kernel) (center := ⟨19 / 2, 19 / 2⟩) (radius := 1 / 4) (by decide +kernel) (by decide +kernel)
    (by norm_num) (by decide +kernel) (by
      have hn : spiralRingsRd toDouble Demo.ten (1 / 4) = 3 := by decide +kernel
      intro d h1 h2
      rw [hn] at h2 ⊢
      rcases (by omega : d = 1 ∨ d = 2) with rfl | rfl
      · exact ⟨⟨15, 14⟩, _, getPositionRd_eq (by decide +kernel), by decide +kernel, by decide +kernel⟩
      · exact ⟨⟨15, 13⟩, _, getPositionRd_eq (by decide +kernel), by decide +kernel, by decide +kernel⟩)
  exact ⟨it, xs, h1, h2, h3 _ _ (getPositionRd_eq (by decide +kernel)) (by decide +kernel)⟩

theorem Demo.ten_clear : Demo.ten.ClearOfCells (1 / 4) := by
  intro k
  have hr : (0 : ℚ) ≤ Demo.ten.resolution := Demo.ten_geo.res_pos.le
  have h1 : 2 * Demo.ten.resolution + 4 * (Demo.ten.tolX + Demo.ten.tolY) ≤ 1 / 4 := by decide +kernel
  have h2 : 1 / 4 + 4 * (Demo.ten.tolX + Demo.ten.tolY) ≤ 3 * Demo.ten.resolution := by decide +kernel
  rcases (by omega : k ≤ 2 ∨ 3 ≤ k) with h | h
  · have : (k : ℚ) ≤ 2 := by exact_mod_cast h
    exact Or.inl (by nlinarith)
  · have : (3 : ℚ) ≤ k := by exact_mod_cast h
    exact Or.inr (by nlinarith)

example : ∃ it xs, SpiralIter.newM toDouble sqrtDouble Demo.ten ⟨19 / 2, 19 / 2⟩ (1 / 4) = .ok it ∧
    Visits (SpiralIter.opsM toDouble sqrtDouble) it xs ∧ (⟨16, 14⟩ : Idx) ∈ xs := by
  obtain ⟨it, xs, h1, h2, -, -, h3, -⟩ := C81_spiral_room_partial C73_double C81_double.1 C81_double.2 Demo.ten_geo
    Demo.ten_tame Demo.ten_small (by decide +kernel) (center := ⟨19 / 2, 19 / 2⟩) (radius := 1 / 4) (by norm_num)
    (by decide +kernel) ⟨by decide +kernel, by decide +kernel⟩ Demo.ten_clear
  exact ⟨it, xs, h1, h2, h3 _ _ (getPositionRd_eq (by decide +kernel)) (by decide +kernel)⟩

example : ∃ it rs, SpiralIter.newM toDouble sqrtDouble Demo.ten ⟨19 / 2, 19 / 2⟩ (1 / 4) = .ok it ∧
    Visits (SpiralIter.opsRadiusM toDouble sqrtDouble) it rs := by
  obtain ⟨a, b, c⟩ := ringsReachRd_of_room C73_double Demo.ten_geo Demo.ten_tame (by decide +kernel)
    (center := ⟨19 / 2, 19 / 2⟩) (radius := 1 / 4) (by norm_num) (by decide +kernel) ⟨by decide +kernel, by decide +kernel⟩
    Demo.ten_clear
  obtain ⟨it, -, rs, h1, -, h2, -⟩ := C81_current_radius_partial C73_double C81_double.1 C81_double.2 Demo.ten_geo
    Demo.ten_tame Demo.ten_small (by decide +kernel) a b (by norm_num) (by decide +kernel) c
  exact ⟨it, rs, h1, h2⟩

example : normM toDouble sqrtDouble 3 4 = some 5 ∧ normM toDouble sqrtDouble 16777216 16777215 = some 23726565 := by
  constructor
  · exact (C81_norm C81_double.1 C81_double.2 (by norm_num) (by norm_num) 5).mpr (by decide +kernel)
  · exact (C81_norm C81_double.1 C81_double.2 (by norm_num) (by norm_num) 23726565).mpr (by decide +kernel)

end CostMapModel

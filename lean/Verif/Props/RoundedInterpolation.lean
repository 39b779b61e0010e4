import Verif.Lemmas.RoundedInterpolation
import Verif.Props.RoundedMove
import Verif.Props.InflationFloat

/-!
# C92: linear interpolation in floating point
-/

set_option linter.unusedSectionVars false

namespace CostMapModel
open CostMap
variable {K : Type} [Field K] [LinearOrder K] [IsStrictOrderedRing K] [FloorRing K]

/-- Without rounding this is the function of the exact model. -/
theorem C92_exact_arithmetic (solve : Solver K) (m : CostMap K) (l : String) (p : Vec K) (k : Interp) :
    m.atPositionInterpRd id id solve l p k = m.atPositionInterp solve l p k := by
  cases k <;> rfl

theorem unwrap_eq_logical {m : CostMap K} {i : Idx} (hi : i.In m.size) : unwrapIdx i m.size m.startIndex = m.logical i := by
  unfold unwrapIdx logical
  split
  · rename_i h0
    obtain ⟨h1, h2, h3, h4⟩ := hi
    rw [h0]; ext
    · simp [Int.emod_eq_of_lt h1 h2]
    · simp [Int.emod_eq_of_lt h3 h4]
  · rfl

/-- One axis: the centres of the cell of `p` and of its neighbour towards `p`. -/
theorem neighbour_axis {rd : K → K} (hrd : DoublePrecision rd) {n : Int} {pos len r T : K} (a : Axis rd n pos len r T)
    (hT : T ≤ 2 ^ 14 * r) {u d : Int} (hu : 0 ≤ u ∧ u < n) (hv : 0 ≤ u - d ∧ u - d < n) {q : K}
    (hd : d = towards (centreRd rd u len pos r) q)
    (hq : |q - centreRd rd u len pos r| ≤ r / 2 + 32 * (T / 2 ^ 53)) :
    |centreRd rd u len pos r| ≤ 2 ^ 14 * r ∧ |centreRd rd (u - d) len pos r| ≤ 2 ^ 14 * r ∧ |q| ≤ 2 ^ 14 * r ∧
    r / 2 ≤ |centreRd rd (u - d) len pos r - centreRd rd u len pos r| ∧
    0 ≤ (q - centreRd rd u len pos r) / (centreRd rd (u - d) len pos r - centreRd rd u len pos r) ∧
    (q - centreRd rd u len pos r) / (centreRd rd (u - d) len pos r - centreRd rd u len pos r) ≤ 1 ∧
    0 ≤ |q - centreRd rd u len pos r| / r ∧ |q - centreRd rd u len pos r| / r ≤ 1 ∧
    |(q - centreRd rd u len pos r) / (centreRd rd (u - d) len pos r - centreRd rd u len pos r) -
      |q - centreRd rd u len pos r| / r| ≤ 1 / 2 ^ 30 := by
  have c1 := a.centre_err hrd hu.1 hu.2
  have c2 := a.centre_err hrd hv.1 hv.2
  have hr := a.r_pos
  have h1 := a.nr_pos; have h3 := a.pos_le; have h4 := abs_nonneg pos
  have p1 := neg_abs_le pos
  have p2 := le_abs_self pos
  obtain ⟨X0, hX0⟩ : ∃ X, X = centreRd rd u len pos r := ⟨_, rfl⟩
  obtain ⟨X1, hX1⟩ : ∃ X, X = centreRd rd (u - d) len pos r := ⟨_, rfl⟩
  rw [← hX0] at c1 hd hq ⊢
  rw [← hX1] at c2 ⊢
  have hU : T / 2 ^ 53 ≤ r / 2 ^ 39 := by
    rw [div_le_div_iff₀ (by positivity) (by positivity)]
    calc T * 2 ^ 39 ≤ 2 ^ 14 * r * 2 ^ 39 := mul_le_mul_of_nonneg_right hT (by positivity)
      _ = r * 2 ^ 53 := by ring
  have hU' : 2 ^ 39 * (T / 2 ^ 53) ≤ r := by
    rw [le_div_iff₀ (by positivity)] at hU; linarith
  have hU0 := a.unit_nonneg
  obtain ⟨U, hUe⟩ : ∃ U, U = T / 2 ^ 53 := ⟨_, rfl⟩
  rw [← hUe] at c1 c2 hq hU' hU0
  have uK : ∀ {w : Int}, 0 ≤ w ∧ w < n → 0 ≤ r * (w : K) ∧ r * (w : K) + r ≤ n * r := by
    intro w hw
    have w0 : (0 : K) ≤ w := by exact_mod_cast hw.1
    have w1 : (w : K) + 1 ≤ n := by exact_mod_cast hw.2
    exact ⟨mul_nonneg hr.le w0, by nlinarith⟩
  obtain ⟨u0, u1⟩ := uK hu
  obtain ⟨v0, v1⟩ := uK hv
  have e : ((u - d : Int) : K) = u - d := by push_cast; ring
  rw [e] at c2 v0 v1
  norm_num at hU'
  rw [abs_le] at c1 c2
  have b0 : |X0| ≤ 2 ^ 14 * r := by
    refine le_trans ?_ hT
    rw [abs_le]; constructor <;> linarith
  have b1 : |X1| ≤ 2 ^ 14 * r := by
    refine le_trans ?_ hT
    rw [mul_sub] at c2 v0 v1
    rw [abs_le]; constructor <;> linarith
  have bq : |q| ≤ 2 ^ 14 * r := by
    refine le_trans ?_ hT
    rw [abs_le] at hq ⊢; constructor <;> linarith
  rw [mul_sub] at c2
  -- both directions at once: `D` is the distance of the centres, `E` the one of `q`
  have key : ∃ D E : K, 0 ≤ E ∧ |q - X0| = E ∧ E ≤ r / 2 + 32 * U ∧ r - 26 * U ≤ D ∧ D ≤ r + 26 * U ∧ |X1 - X0| = D ∧
      (q - X0) / (X1 - X0) = E / D := by
    rcases towards_cases X0 q with ⟨hd', hh⟩ | ⟨hd', hh⟩ <;> rw [hd'] at hd <;> rw [hd] at c2 <;> push_cast at c2
    · refine ⟨X1 - X0, q - X0, by linarith, abs_of_nonneg (by linarith), by rw [abs_le] at hq; linarith, by linarith, by linarith,
        abs_of_nonneg (by linarith), rfl⟩
    · refine ⟨X0 - X1, X0 - q, by linarith, by rw [abs_of_neg (by linarith)]; ring, by rw [abs_le] at hq; linarith, by linarith, by linarith,
        by rw [abs_of_neg (by linarith)]; ring, ?_⟩
      rw [← neg_sub X0 q, ← neg_sub X0 X1, neg_div_neg_eq]
  obtain ⟨D, E, hE, eE, E1, D1, D2, eD, eQ⟩ := key
  have hD : 0 < D := by linarith
  rw [eE, eD, eQ]
  refine ⟨b0, b1, bq, by linarith, by positivity, by rw [div_le_one hD]; linarith, by positivity, by rw [div_le_one hr]; linarith, ?_⟩
  have eq : E / D - E / r = E * (r - D) / (D * r) := by field_simp
  rw [eq, abs_div, abs_of_pos (mul_pos hD hr), div_le_div_iff₀ (mul_pos hD hr) (by positivity), abs_mul, abs_of_nonneg hE]
  have k : |r - D| ≤ 26 * U := by rw [abs_le]; constructor <;> linarith
  have k1 : E * |r - D| ≤ D * (26 * U) := mul_le_mul (by linarith) k (abs_nonneg _) hD.le
  have k2 : 26 * U * 2 ^ 30 ≤ r := by norm_num; linarith
  calc E * |r - D| * 2 ^ 30 ≤ D * (26 * U) * 2 ^ 30 := mul_le_mul_of_nonneg_right k1 (by positivity)
    _ = D * (26 * U * 2 ^ 30) := by ring
    _ ≤ D * r := mul_le_mul_of_nonneg_left k2 hD.le
    _ = 1 * (D * r) := by ring

/-- The conversion of a number near a number between two costs. -/
theorem costOfFloat_near {v w : K} {lo hi : ℕ} (h : |v - w| ≤ 1 / 16) (hlo : (lo : K) ≤ w) (hhi : w ≤ hi) (h255 : hi ≤ 255) :
    ∃ c : Cost, costOfFloat v = .ok c ∧ ⌊w - 1 / 16⌋ ≤ c.toNat ∧ (c.toNat : Int) ≤ ⌊w + 1 / 16⌋ ∧ (lo : Int) - 1 ≤ c.toNat ∧
      c.toNat ≤ hi := by
  rw [abs_le] at h
  have h0 : (0 : K) ≤ lo := Nat.cast_nonneg lo
  have hhi' : ⌊w + 1 / 16⌋ ≤ hi := by
    have : ⌊w + 1 / 16⌋ < (hi : Int) + 1 := by
      rw [Int.floor_lt]; push_cast; linarith
    omega
  have hlo' : (lo : Int) - 1 ≤ ⌊w - 1 / 16⌋ := by
    rw [Int.le_floor]; push_cast; linarith
  have h0' : 0 ≤ ⌊w + 1 / 16⌋ := by rw [Int.floor_nonneg]; linarith
  rcases le_or_gt 0 v with hv | hv
  · have a : 0 ≤ ⌊v⌋ := Int.floor_nonneg.mpr hv
    have b : ⌊v⌋ ≤ ⌊w + 1 / 16⌋ := Int.floor_le_floor (by linarith)
    have d : ⌊w - 1 / 16⌋ ≤ ⌊v⌋ := Int.floor_le_floor (by linarith)
    refine ⟨UInt8.ofNat ⌊v⌋.toNat, ?_, ?_⟩
    · unfold costOfFloat
      rw [truncToInt_of_nonneg hv]
      simp only
      rw [if_pos (by omega)]
    · have e : (UInt8.ofNat ⌊v⌋.toNat).toNat = ⌊v⌋.toNat := by
        rw [UInt8.toNat_ofNat']; omega
      rw [e]
      omega
  · have t : -truncToInt v = ⌊-v⌋ := neg_truncToInt_of_nonpos hv.le
    have z : ⌊-v⌋ = 0 := by rw [Int.floor_eq_iff]; push_cast; constructor <;> linarith
    have t0 : truncToInt v = 0 := by omega
    have d : ⌊w - 1 / 16⌋ < 1 := by rw [Int.floor_lt]; push_cast; linarith
    refine ⟨0, ?_, ?_⟩
    · unfold costOfFloat
      rw [t0]; rfl
    · have e : ((0 : Cost).toNat) = 0 := rfl
      rw [e]
      omega

/-- C92, partial: where the two neighbouring cells towards `p` exist and are also neighbours in the buffer, on a map within `2^14` cells of
the origin of its frame. The result differs from the blend of the four costs, weighted by the distances in cells, by less than a
sixteenth before it is cut to a whole number; so it is never above all four costs, and never more than one below all of them. Missing: maps
further away from the origin (`C92_false_far`) and that nothing is lost (`C92_false_centre`). -/
theorem C92_blend_partial {rd rf : K → K} (hrd : DoublePrecision rd) (hrf : FloatPrecision rf) {m : CostMap K} (h : m.GeoRd rd)
    (hnear : m.NearOrigin) {solve : Solver K} (hsolve : SolveStable rd m.resolution solve) (hc : m.Coherent) {l : String}
    (hl : m.exists l = true) {p : Vec K} (hin : m.isInsideRd rd p = true)
    (hlx : m.position.x - m.length.x / 2 + m.tolX ≤ p.x) (hly : m.position.y - m.length.y / 2 + m.tolY ≤ p.y)
    {i : Idx} {c : Vec K} (hi : m.getIndexRd rd p = (i, true)) (hcen : m.getPositionRd rd i = some c)
    (hx : (i + ⟨-towards c.x p.x, 0⟩).In m.size ∧ m.logical (i + ⟨-towards c.x p.x, 0⟩) = m.logical i + ⟨-towards c.x p.x, 0⟩)
    (hy : (i + ⟨0, -towards c.y p.y⟩).In m.size ∧ m.logical (i + ⟨0, -towards c.y p.y⟩) = m.logical i + ⟨0, -towards c.y p.y⟩) :
    ∃ b0 b1 b2 b3 w : Cost, m.at l i = .ok b0 ∧ m.at l (i + ⟨-towards c.x p.x, 0⟩) = .ok b1 ∧
      m.at l (i + ⟨0, -towards c.y p.y⟩) = .ok b2 ∧ m.at l (i + ⟨-towards c.x p.x, -towards c.y p.y⟩) = .ok b3 ∧
      m.atPositionInterpRd rd rf solve l p .linear = .ok w ∧
      let v := blend (|p.x - c.x| / m.resolution) (|p.y - c.y| / m.resolution) (b0.toNat : K) b1.toNat b2.toNat b3.toNat
      ⌊v - 1 / 16⌋ ≤ w.toNat ∧ (w.toNat : Int) ≤ ⌊v + 1 / 16⌋ ∧
      ((min (min b0.toNat b1.toNat) (min b2.toNat b3.toNat) : ℕ) : Int) - 1 ≤ w.toNat ∧
      w.toNat ≤ max (max b0.toNat b1.toNat) (max b2.toNat b3.toNat) := by
  have hr := h.res_pos
  have ht : m.Tame := ⟨hnear.x.trans (mul_le_mul_of_nonneg_right (by norm_num) hr.le),
    hnear.y.trans (mul_le_mul_of_nonneg_right (by norm_num) hr.le)⟩
  have ax := axis_x h ht
  have ay := axis_y h ht
  obtain ⟨i', c', hi', hii, hc', dx, dy⟩ := C74_containing_cell_partial hrd h ht hin hlx hly
  rw [hi] at hi'
  obtain rfl : i = i' := congrArg Prod.fst hi'
  rw [hcen] at hc'
  obtain rfl : c = c' := Option.some.inj hc'
  obtain ⟨d, hd⟩ : ∃ d, d = towards c.x p.x := ⟨_, rfl⟩
  obtain ⟨e, he⟩ : ∃ e, e = towards c.y p.y := ⟨_, rfl⟩
  rw [← hd] at hx
  rw [← he] at hy
  rw [← hd, ← he]
  have posn : ∀ {j : Idx}, j.In m.size → m.getPositionRd rd j = some
      ⟨centreRd rd (m.logical j).x m.length.x m.position.x m.resolution, centreRd rd (m.logical j).y m.length.y m.position.y m.resolution⟩ := by
    intro j hj
    simp only [getPositionRd, positionFromIndexRd, inRange_iff.mpr hj, if_true]
    rw [unwrap_eq_logical hj]
  have inlog : ∀ {j : Idx}, j.In m.size → (m.logical j).In m.size := by
    intro j hj
    rw [← unwrap_eq_logical hj]; exact unwrapIdx_in hj h.start
  have h3in : (i + ⟨-d, -e⟩).In m.size := by
    have a := hx.1; have b := hy.1
    exact ⟨a.1, a.2.1, b.2.2.1, b.2.2.2⟩
  have h3log : m.logical (i + ⟨-d, -e⟩) = m.logical i + ⟨-d, -e⟩ := by
    have a := congrArg Idx.x hx.2; have b := congrArg Idx.y hy.2
    ext
    · exact a
    · exact b
  have p0 := posn hii
  rw [hcen] at p0
  have hce := Option.some.inj p0
  have cx : c.x = centreRd rd (m.logical i).x m.length.x m.position.x m.resolution := congrArg Vec.x hce
  have cy : c.y = centreRd rd (m.logical i).y m.length.y m.position.y m.resolution := congrArg Vec.y hce
  obtain ⟨l1, l2, l3, l4⟩ := inlog hii
  have q3 := inlog h3in
  rw [h3log] at q3
  obtain ⟨k1, k2, k3, k4⟩ := q3
  have nx := neighbour_axis hrd ax hnear.x (d := d) ⟨l1, l2⟩ ⟨k1, k2⟩ (q := p.x) (by rw [← cx]; exact hd)
    (by rw [← cx, ← tolX_eq]; exact dx)
  have ny := neighbour_axis hrd ay hnear.y (d := e) ⟨l3, l4⟩ ⟨k3, k4⟩ (q := p.y) (by rw [← cy]; exact he)
    (by rw [← cy, ← tolY_eq]; exact dy)
  rw [← cx] at nx
  rw [← cy] at ny
  obtain ⟨x1, x2, x3, x4, x5, x6, x7, x8, x9⟩ := nx
  obtain ⟨y1, y2, y3, y4, y5, y6, y7, y8, y9⟩ := ny
  obtain ⟨X1, hX1⟩ : ∃ X, X = centreRd rd ((m.logical i).x - d) m.length.x m.position.x m.resolution := ⟨_, rfl⟩
  obtain ⟨Y1, hY1⟩ : ∃ X, X = centreRd rd ((m.logical i).y - e) m.length.y m.position.y m.resolution := ⟨_, rfl⟩
  rw [← hX1] at x2 x4 x5 x6 x9
  rw [← hY1] at y2 y4 y5 y6 y9
  have g1 : m.getPositionRd rd (i + ⟨-d, 0⟩) = some ⟨X1, c.y⟩ := by
    rw [posn hx.1, hx.2, hX1, cy]
    simp only [Idx.add_x, Idx.add_y, add_zero]; rfl
  have g2 : m.getPositionRd rd (i + ⟨0, -e⟩) = some ⟨c.x, Y1⟩ := by
    rw [posn hy.1, hy.2, hY1, cx]
    simp only [Idx.add_x, Idx.add_y, add_zero]; rfl
  have g3 : m.getPositionRd rd (i + ⟨-d, -e⟩) = some ⟨X1, Y1⟩ := by
    rw [posn h3in, h3log, hX1, hY1]; rfl
  obtain ⟨b0, hb0⟩ := hc.at_ok hl hii
  obtain ⟨b1, hb1⟩ := hc.at_ok hl hx.1
  obtain ⟨b2, hb2⟩ := hc.at_ok hl hy.1
  obtain ⟨b3, hb3⟩ := hc.at_ok hl h3in
  have byte : ∀ b : Cost, (0 : K) ≤ (b.toNat : K) ∧ (b.toNat : K) ≤ 255 := by
    intro b
    have := b.toNat_lt
    exact ⟨Nat.cast_nonneg _, by exact_mod_cast (by omega : b.toNat ≤ 255)⟩
  have val := interp_value hrd hr hsolve x1 x2 y1 y2 x3 y3 x4 y4 (byte b0) (byte b1) (byte b2) (byte b3) x5 x6 y5 y6
  have wgt := blend_weights x9 y9 x7 x8 y5 y6 (byte b0) (byte b1) (byte b2) (byte b3)
  have hlin : m.linearInterpolatedRd rd rf solve l p = .ok (some (rf (evalRd rd (solve
      ![rowRd rd ⟨c.x, c.y⟩, rowRd rd ⟨X1, c.y⟩, rowRd rd ⟨c.x, Y1⟩, rowRd rd ⟨X1, Y1⟩]
      ![(b0.toNat : K), (b1.toNat : K), (b2.toNat : K), (b3.toNat : K)]) p))) := by
    have i1e : (if c.x ≤ p.x then i + ⟨-1, 0⟩ else i + ⟨1, 0⟩) = i + ⟨-d, 0⟩ := by
      rw [hd]; unfold towards; split <;> rfl
    have i2e : (if c.y ≤ p.y then i + ⟨0, -1⟩ else i + ⟨0, 1⟩) = i + ⟨0, -e⟩ := by
      rw [he]; unfold towards; split <;> rfl
    have i3e : (⟨(i + ⟨-d, 0⟩ : Idx).x, (i + ⟨0, -e⟩ : Idx).y⟩ : Idx) = i + ⟨-d, -e⟩ := rfl
    unfold linearInterpolatedRd
    simp only [hi, hcen, i1e, i2e, i3e, g1, g2, g3, hb0, hb1, hb2, hb3, Res.bind_ok]
  obtain ⟨V, hV⟩ : ∃ V, V = evalRd rd (solve
      ![rowRd rd ⟨c.x, c.y⟩, rowRd rd ⟨X1, c.y⟩, rowRd rd ⟨c.x, Y1⟩, rowRd rd ⟨X1, Y1⟩]
      ![(b0.toNat : K), (b1.toNat : K), (b2.toNat : K), (b3.toNat : K)]) p := ⟨_, rfl⟩
  rw [← hV] at val hlin
  have both : ∀ b ∈ [b0, b1, b2, b3], ((min (min b0.toNat b1.toNat) (min b2.toNat b3.toNat) : ℕ) : K) ≤ (b.toNat : K) ∧
      (b.toNat : K) ≤ ((max (max b0.toNat b1.toNat) (max b2.toNat b3.toNat) : ℕ) : K) := by
    intro b hb
    simp only [List.mem_cons, List.not_mem_nil, or_false] at hb
    rcases hb with rfl | rfl | rfl | rfl <;> exact ⟨Nat.cast_le.mpr (by omega), Nat.cast_le.mpr (by omega)⟩
  obtain ⟨lo, hi'⟩ := blend_between x7 x8 y7 y8 (both b0 (by simp)) (both b1 (by simp)) (both b2 (by simp))
    (both b3 (by simp))
  have h255 : max (max b0.toNat b1.toNat) (max b2.toNat b3.toNat) ≤ 255 := by
    have := b0.toNat_lt; have := b1.toNat_lt; have := b2.toNat_lt; have := b3.toNat_lt; omega
  have hi255 : ((max (max b0.toNat b1.toNat) (max b2.toNat b3.toNat) : ℕ) : K) ≤ 255 := by exact_mod_cast h255
  have lo0 : (0 : K) ≤ ((min (min b0.toNat b1.toNat) (min b2.toNat b3.toNat) : ℕ) : K) := Nat.cast_nonneg _
  have hnear' : |rf V - blend (|p.x - c.x| / m.resolution) (|p.y - c.y| / m.resolution) (b0.toNat : K) b1.toNat b2.toNat b3.toNat| ≤
      1 / 16 := by
    rw [abs_le] at val wgt
    have hV256 : |V| ≤ 256 := by
      norm_num at wgt
      rw [abs_le]; constructor <;> linarith
    have hf := (hrf V).trans (div_le_div_of_nonneg_right hV256 (by positivity))
    rw [abs_le] at hf ⊢
    norm_num at wgt hf ⊢
    constructor <;> linarith
  obtain ⟨w, w1, w2, w3, w4, w5⟩ := costOfFloat_near hnear' lo hi' h255
  exact ⟨b0, b1, b2, b3, w, hb0, hb1, hb2, hb3, by simp only [atPositionInterpRd, hlin, Res.bind_ok]; exact w1, w2, w3, w4, w5⟩

/-- C92, the fallback: where a neighbouring cell towards `p` is not in the buffer, the result is that of the nearest cell. Any solver and any
rounding. -/
theorem C92_fallback (rd rf : K → K) (solve : Solver K) (m : CostMap K) (l : String) {p : Vec K} {i : Idx} {c : Vec K} {b : Bool}
    (hi : m.getIndexRd rd p = (i, b)) (hcen : m.getPositionRd rd i = some c)
    (hn : ¬ (i + ⟨-towards c.x p.x, 0⟩).In m.size ∨ ¬ (i + ⟨0, -towards c.y p.y⟩).In m.size) :
    m.atPositionInterpRd rd rf solve l p .linear = m.atPositionRd rd l p := by
  have i1e : (if c.x ≤ p.x then i + ⟨-1, 0⟩ else i + ⟨1, 0⟩) = i + ⟨-towards c.x p.x, 0⟩ := by
    unfold towards; split <;> rfl
  have i2e : (if c.y ≤ p.y then i + ⟨0, -1⟩ else i + ⟨0, 1⟩) = i + ⟨0, -towards c.y p.y⟩ := by
    unfold towards; split <;> rfl
  have none_of : ∀ {j : Idx}, ¬ j.In m.size → m.getPositionRd rd j = none := by
    intro j hj
    unfold getPositionRd positionFromIndexRd
    rw [if_neg (fun h => hj (inRange_iff.mp h))]
  have hnone : m.linearInterpolatedRd rd rf solve l p = .ok none := by
    unfold linearInterpolatedRd
    simp only [hi, hcen, i1e, i2e]
    rcases hn with hn | hn
    · rw [none_of hn]
    · rw [none_of hn]
      cases m.getPositionRd rd (i + ⟨-towards c.x p.x, 0⟩) <;> rfl
  simp only [atPositionInterpRd, hnone, Res.bind_ok]

/-- C92, partial: on a map that was never moved, within `2^14` cells of the origin of its frame, the result at the centre of a cell is its cost or one
less. Missing: that it is its cost (`C92_false_centre`). -/
theorem C92_at_centre_partial {rd rf : K → K} (hrd : DoublePrecision rd) (hrf : FloatPrecision rf) {m : CostMap K} (h : m.GeoRd rd)
    (hnear : m.NearOrigin) {solve : Solver K} (hsolve : SolveStable rd m.resolution solve) (hc : m.Coherent) (h0 : m.startIndex = 0)
    {l : String} (hl : m.exists l = true) {i : Idx} (hi : i.In m.size) :
    ∃ p b w, m.getPositionRd rd i = some p ∧ m.at l i = .ok b ∧ m.atPositionInterpRd rd rf solve l p .linear = .ok w ∧
      b.toNat ≤ w.toNat + 1 ∧ w.toNat ≤ b.toNat := by
  have hr := h.res_pos
  have ht : m.Tame := ⟨hnear.x.trans (mul_le_mul_of_nonneg_right (by norm_num) hr.le),
    hnear.y.trans (mul_le_mul_of_nonneg_right (by norm_num) hr.le)⟩
  obtain ⟨p, hp, hin, hidx⟩ := C73_round_trip hrd h ht hi
  obtain ⟨b, hb⟩ := hc.at_ok hl hi
  have log : ∀ {j : Idx}, j.In m.size → m.logical j = j := by
    intro j hj
    obtain ⟨h1, h2, h3, h4⟩ := hj
    unfold logical
    rw [h0]; ext
    · simp [Int.emod_eq_of_lt h1 h2]
    · simp [Int.emod_eq_of_lt h3 h4]
  by_cases hn : (i + ⟨-towards p.x p.x, 0⟩).In m.size ∧ (i + ⟨0, -towards p.y p.y⟩).In m.size
  · obtain ⟨p', hp', ex, ey⟩ := C73_centre hrd h ht hi
    rw [hp] at hp'
    obtain rfl : p = p' := Option.some.inj hp'
    have low : ∀ {n : Int} {pos len T c : K} {u : Int}, Axis rd n pos len m.resolution T → u < n →
        |c - (pos + ((n : K) / 2 - u - 1 / 2) * m.resolution)| ≤ 32 * (T / 2 ^ 53) → T ≤ 2 ^ 14 * m.resolution →
        pos - len / 2 + 32 * (T / 2 ^ 53) ≤ c := by
      intro n pos len T c u a hu hcc hT
      have l := a.len_err hrd
      have u0 := a.unit_nonneg
      have u1 : (u : K) + 1 ≤ n := by exact_mod_cast hu
      have u2 : ((n : K) - u - 1) * m.resolution ≥ 0 := mul_nonneg (by linarith) hr.le
      have hU : 2 ^ 39 * (T / 2 ^ 53) ≤ m.resolution := by
        have e : 2 ^ 39 * (T / 2 ^ 53) = T / 2 ^ 14 := by ring
        rw [e, div_le_iff₀ (by positivity)]; linarith
      norm_num at hU
      rw [abs_le] at l hcc
      have e : pos + ((n : K) / 2 - u - 1 / 2) * m.resolution =
        pos - n * m.resolution / 2 + ((n : K) - u - 1) * m.resolution + m.resolution / 2 := by ring
      rw [e] at hcc
      norm_num at l hcc ⊢
      linarith
    rw [tolX_eq] at ex
    rw [tolY_eq] at ey
    have hli := log hi
    rw [hli] at ex ey
    obtain ⟨b0, b1, b2, b3, w, e0, e1, e2, e3, ew, w1, w2, -, -⟩ := C92_blend_partial hrd hrf h hnear hsolve hc hl hin
      (by rw [tolX_eq]; exact low (axis_x h ht) hi.2.1 ex hnear.x) (by rw [tolY_eq]; exact low (axis_y h ht) hi.2.2.2 ey hnear.y)
      hidx hp ⟨hn.1, by rw [log hn.1, hli]⟩ ⟨hn.2, by rw [log hn.2, hli]⟩
    have eb : blend (|p.x - p.x| / m.resolution) (|p.y - p.y| / m.resolution) (b0.toNat : K) b1.toNat b2.toNat b3.toNat = b0.toNat := by
      simp [blend]
    rw [eb] at w1 w2
    have f1 : (b0.toNat : Int) - 1 ≤ ⌊(b0.toNat : K) - 1 / 16⌋ := by rw [Int.le_floor]; push_cast; linarith
    have f2 : ⌊(b0.toNat : K) + 1 / 16⌋ < (b0.toNat : Int) + 1 := by rw [Int.floor_lt]; push_cast; linarith
    exact ⟨p, b0, w, hp, e0, ew, by omega, by omega⟩
  · refine ⟨p, b, b, hp, hb, ?_, by omega, le_rfl⟩
    rw [C92_fallback rd rf solve m l hidx hp (by tauto)]
    unfold atPositionRd
    rw [hidx]
    exact hb

/-! ## Solvers -/

/-- The system for four cells has exactly one solution, also with rounded products. -/
theorem system_solution {X0 X1 Y0 Y1 w0 w1 w2 w3 b0 b1 b2 b3 : K} (hX : X1 - X0 ≠ 0) (hY : Y1 - Y0 ≠ 0) (hD : w3 - w1 - w2 + w0 ≠ 0)
    (x : Fin 4 → K) :
    (1 * x 0 + X0 * x 1 + Y0 * x 2 + w0 * x 3 = b0 ∧ 1 * x 0 + X1 * x 1 + Y0 * x 2 + w1 * x 3 = b1 ∧
      1 * x 0 + X0 * x 1 + Y1 * x 2 + w2 * x 3 = b2 ∧ 1 * x 0 + X1 * x 1 + Y1 * x 2 + w3 * x 3 = b3) ↔
    x 3 = (b3 - b1 - b2 + b0) / (w3 - w1 - w2 + w0) ∧ x 1 = (b1 - b0 - x 3 * (w1 - w0)) / (X1 - X0) ∧
      x 2 = (b2 - b0 - x 3 * (w2 - w0)) / (Y1 - Y0) ∧ x 0 = b0 - x 1 * X0 - x 2 * Y0 - x 3 * w0 := by
  rw [eq_div_iff hD, eq_div_iff hX, eq_div_iff hY]
  constructor
  · rintro ⟨h0, h1, h2, h3⟩
    exact ⟨by linear_combination h3 - h1 - h2 + h0, by linear_combination h1 - h0, by linear_combination h2 - h0, by linear_combination h0⟩
  · rintro ⟨h3, h1, h2, h0⟩
    exact ⟨by linear_combination h0, by linear_combination h0 + h1, by linear_combination h0 + h2, by linear_combination h0 + h1 + h2 + h3⟩

/-- The solution of `system_solution`. -/
def solution (X0 X1 Y0 Y1 w0 w1 w2 w3 b0 b1 b2 b3 : K) : Fin 4 → K :=
  let x3 := (b3 - b1 - b2 + b0) / (w3 - w1 - w2 + w0)
  let x1 := (b1 - b0 - x3 * (w1 - w0)) / (X1 - X0)
  let x2 := (b2 - b0 - x3 * (w2 - w0)) / (Y1 - Y0)
  ![b0 - x1 * X0 - x2 * Y0 - x3 * w0, x1, x2, x3]

/-- A solver without errors finds that solution. -/
theorem SolveOk.eq_solution {solve : Solver K} (hsolve : SolveOk solve) (rd : K → K) {X0 X1 Y0 Y1 : K} (b0 b1 b2 b3 : K) (hX : X1 - X0 ≠ 0) (hY : Y1 - Y0 ≠ 0)
    (hD : rd (X1 * Y1) - rd (X1 * Y0) - rd (X0 * Y1) + rd (X0 * Y0) ≠ 0) :
    solve ![rowRd rd ⟨X0, Y0⟩, rowRd rd ⟨X1, Y0⟩, rowRd rd ⟨X0, Y1⟩, rowRd rd ⟨X1, Y1⟩] ![b0, b1, b2, b3] =
      solution X0 X1 Y0 Y1 (rd (X0 * Y0)) (rd (X1 * Y0)) (rd (X0 * Y1)) (rd (X1 * Y1)) b0 b1 b2 b3 := by
  have ex := (system_solution (b0 := b0) (b1 := b1) (b2 := b2) (b3 := b3) hX hY hD (solution X0 X1 Y0 Y1 (rd (X0 * Y0)) (rd (X1 * Y0))
    (rd (X0 * Y1)) (rd (X1 * Y1)) b0 b1 b2 b3)).mpr ⟨rfl, rfl, rfl, rfl⟩
  have hs := hsolve ![rowRd rd ⟨X0, Y0⟩, rowRd rd ⟨X1, Y0⟩, rowRd rd ⟨X0, Y1⟩, rowRd rd ⟨X1, Y1⟩] ![b0, b1, b2, b3]
    ⟨_, fun i => by
      fin_cases i
      · exact ex.1
      · exact ex.2.1
      · exact ex.2.2.1
      · exact ex.2.2.2⟩
  obtain ⟨h3, h1, h2, h0⟩ := (system_solution hX hY hD _).mp ⟨hs 0, hs 1, hs 2, hs 3⟩
  rw [h3] at h1 h2
  funext j
  fin_cases j
  · refine h0.trans ?_
    rw [h1, h2, h3]; rfl
  · exact h1
  · exact h2
  · exact h3

/-- A solver without errors is stable. -/
theorem SolveOk.stable {solve : Solver K} (hsolve : SolveOk solve) {rd : K → K} (hrd : DoublePrecision rd) {r : K} (hr : 0 < r) :
    SolveStable rd r solve := by
  rintro A b ⟨X0, X1, Y0, Y1, rfl, ⟨hX0, hX1, hY0, hY1⟩, hdx, hdy⟩ i
  have hX : X1 - X0 ≠ 0 := by intro h; rw [h, abs_zero] at hdx; linarith
  have hY : Y1 - Y0 ≠ 0 := by intro h; rw [h, abs_zero] at hdy; linarith
  have pe : ∀ {a b : K}, |a| ≤ 2 ^ 14 * r → |b| ≤ 2 ^ 14 * r → |rd (a * b) - a * b| ≤ r ^ 2 / 2 ^ 25 := by
    intro a b ha hb
    refine (hrd _).trans ?_
    rw [abs_mul, div_le_div_iff₀ (by positivity) (by positivity)]
    have := mul_le_mul ha hb (abs_nonneg _) (by positivity)
    calc |a| * |b| * 2 ^ 25 ≤ 2 ^ 14 * r * (2 ^ 14 * r) * 2 ^ 25 := mul_le_mul_of_nonneg_right this (by positivity)
      _ = _ := by ring
  have q0 := pe hX0 hY0
  have q1 := pe hX1 hY0
  have q2 := pe hX0 hY1
  have q3 := pe hX1 hY1
  have area : r ^ 2 / 4 ≤ |(X1 - X0) * (Y1 - Y0)| := by
    rw [abs_mul]
    have := mul_le_mul hdx hdy (by positivity) (abs_nonneg _)
    calc r ^ 2 / 4 = r / 2 * (r / 2) := by ring
      _ ≤ _ := this
  have hD : rd (X1 * Y1) - rd (X1 * Y0) - rd (X0 * Y1) + rd (X0 * Y0) ≠ 0 := by
    intro h
    have e : (X1 - X0) * (Y1 - Y0) = -(rd (X1 * Y1) - X1 * Y1) + (rd (X1 * Y0) - X1 * Y0) + (rd (X0 * Y1) - X0 * Y1) -
        (rd (X0 * Y0) - X0 * Y0) := by linear_combination h
    rw [e] at area
    have r2 : 0 < r ^ 2 := by positivity
    have : |-(rd (X1 * Y1) - X1 * Y1) + (rd (X1 * Y0) - X1 * Y0) + (rd (X0 * Y1) - X0 * Y1) - (rd (X0 * Y0) - X0 * Y0)| ≤
        4 * (r ^ 2 / 2 ^ 25) := by
      rw [abs_le] at q0 q1 q2 q3 ⊢
      constructor <;> linarith
    have := area.trans this
    norm_num at this
    linarith
  have hs := hsolve ![rowRd rd ⟨X0, Y0⟩, rowRd rd ⟨X1, Y0⟩, rowRd rd ⟨X0, Y1⟩, rowRd rd ⟨X1, Y1⟩] b
    ⟨solution X0 X1 Y0 Y1 (rd (X0 * Y0)) (rd (X1 * Y0)) (rd (X0 * Y1)) (rd (X1 * Y1)) (b 0) (b 1) (b 2) (b 3), fun j => by
      have ex := (system_solution (b0 := b 0) (b1 := b 1) (b2 := b 2) (b3 := b 3) hX hY hD (solution X0 X1 Y0 Y1 (rd (X0 * Y0)) (rd (X1 * Y0))
        (rd (X0 * Y1)) (rd (X1 * Y1)) (b 0) (b 1) (b 2) (b 3))).mpr ⟨rfl, rfl, rfl, rfl⟩
      fin_cases j
      · exact ex.1
      · exact ex.2.1
      · exact ex.2.2.1
      · exact ex.2.2.2⟩
  rw [hs i, sub_self, abs_zero]
  have cm : ∀ (A : Fin 4 → Fin 4 → K) (j : Fin 4), 0 ≤ colMax A j := fun A j =>
    (abs_nonneg _).trans ((le_max_left _ _).trans (le_max_left _ _))
  have := fun j => mul_nonneg (cm ![rowRd rd ⟨X0, Y0⟩, rowRd rd ⟨X1, Y0⟩, rowRd rd ⟨X0, Y1⟩, rowRd rd ⟨X1, Y1⟩] j)
    (abs_nonneg (solve ![rowRd rd ⟨X0, Y0⟩, rowRd rd ⟨X1, Y0⟩, rowRd rd ⟨X0, Y1⟩, rowRd rd ⟨X1, Y1⟩] b j))
  exact div_nonneg (by linarith [this 0, this 1, this 2, this 3]) (by positivity)

/-- What the code computes with a solver without errors. -/
theorem linearInterpolatedRd_exact {solve : Solver K} (hsolve : SolveOk solve) (rd rf : K → K) {m : CostMap K} {l : String} {p : Vec K}
    {X0 X1 Y0 Y1 : K} {b0 b1 b2 b3 : Cost} {i0 i1 i2 i3 : Idx} (g : (m.getIndexRd rd p).1 = i0)
    (e0 : m.getPositionRd rd i0 = some ⟨X0, Y0⟩)
    (g1 : (if X0 ≤ p.x then i0 + ⟨-1, 0⟩ else i0 + ⟨1, 0⟩) = i1)
    (g2 : (if Y0 ≤ p.y then i0 + ⟨0, -1⟩ else i0 + ⟨0, 1⟩) = i2) (g3 : (⟨i1.x, i2.y⟩ : Idx) = i3)
    (e1 : m.getPositionRd rd i1 = some ⟨X1, Y0⟩) (e2 : m.getPositionRd rd i2 = some ⟨X0, Y1⟩)
    (e3 : m.getPositionRd rd i3 = some ⟨X1, Y1⟩)
    (a0 : m.at l i0 = .ok b0) (a1 : m.at l i1 = .ok b1) (a2 : m.at l i2 = .ok b2) (a3 : m.at l i3 = .ok b3)
    (hX : X1 - X0 ≠ 0) (hY : Y1 - Y0 ≠ 0) (hD : rd (X1 * Y1) - rd (X1 * Y0) - rd (X0 * Y1) + rd (X0 * Y0) ≠ 0) :
    m.linearInterpolatedRd rd rf solve l p = .ok (some (rf (evalRd rd (solution X0 X1 Y0 Y1 (rd (X0 * Y0)) (rd (X1 * Y0)) (rd (X0 * Y1))
      (rd (X1 * Y1)) (b0.toNat : K) b1.toNat b2.toNat b3.toNat) p))) := by
  unfold linearInterpolatedRd
  simp only [g, e0, g1, g2, g3, e1, e2, e3, a0, a1, a2, a3, Res.bind_ok]
  rw [hsolve.eq_solution rd _ _ _ _ hX hY hD]

/-- A map of 2 x 2 cells of a sixteenth of a metre at the coordinates (500000 m, 5000000 m), as in a UTM zone. -/
def Demo.utm (b0 b1 b2 b3 : Cost) : CostMap ℚ :=
  let m1 := (CostMap.setGeometryRd toDouble ⟨1 / 8, 1 / 8⟩ (1 / 16) ⟨500000 + 1 / 16, 5000000 + 1 / 16⟩ (CostMap.new [])).2
  (CostMap.add "a" (Mat.ofFn 2 2 fun i j => if i = 1 ∧ j = 1 then b0 else if j = 1 then b1 else if i = 1 then b2 else b3) m1).2

/-- C92 is false far away from the origin, even with a solver without errors. On a map of cells of a sixteenth of a metre in a UTM frame, read at the
centre of a cell that holds 100, next to cells that hold 0, the result is 104. Read at the centre of a cell that holds 254, the cost of an obstacle, next to two
more of them and a free cell, the `float` is 256 and the conversion to a byte is undefined behaviour. -/
theorem C92_false_far {solve : Solver ℚ} (hsolve : SolveOk solve) :
    ((Demo.utm 100 0 0 0).getPositionRd toDouble ⟨1, 1⟩ = some ⟨500000 + 1 / 32, 5000000 + 1 / 32⟩ ∧
      (Demo.utm 100 0 0 0).atPositionRd toDouble "a" ⟨500000 + 1 / 32, 5000000 + 1 / 32⟩ = .ok 100 ∧
      (Demo.utm 100 0 0 0).atPositionInterpRd toDouble toFloat solve "a" ⟨500000 + 1 / 32, 5000000 + 1 / 32⟩ .linear = .ok 104) ∧
    (Demo.utm 254 254 254 0).atPositionRd toDouble "a" ⟨500000 + 1 / 32, 5000000 + 1 / 32⟩ = .ok 254 ∧
    (Demo.utm 254 254 254 0).atPositionInterpRd toDouble toFloat solve "a" ⟨500000 + 1 / 32, 5000000 + 1 / 32⟩ .linear = .ub := by
  refine ⟨⟨by decide +kernel, by decide +kernel, ?_⟩, by decide +kernel, ?_⟩
  · have e := linearInterpolatedRd_exact hsolve toDouble toFloat (m := Demo.utm 100 0 0 0) (l := "a") (p := ⟨500000 + 1 / 32, 5000000 + 1 / 32⟩)
      (X0 := 500000 + 1 / 32) (X1 := 500000 + 3 / 32) (Y0 := 5000000 + 1 / 32) (Y1 := 5000000 + 3 / 32) (b0 := 100) (b1 := 0) (b2 := 0) (b3 := 0)
      (i0 := ⟨1, 1⟩) (i1 := ⟨0, 1⟩) (i2 := ⟨1, 0⟩) (i3 := ⟨0, 0⟩) (by decide +kernel) (by decide +kernel)
      (by decide +kernel) (by decide +kernel) (by decide +kernel) (by decide +kernel) (by decide +kernel)
      (by decide +kernel) (by decide +kernel) (by decide +kernel) (by decide +kernel) (by decide +kernel)
      (by decide +kernel) (by decide +kernel) (by decide +kernel)
    simp only [atPositionInterpRd, e, Res.bind_ok]
    decide +kernel
  · have e := linearInterpolatedRd_exact hsolve toDouble toFloat (m := Demo.utm 254 254 254 0) (l := "a") (p := ⟨500000 + 1 / 32, 5000000 + 1 / 32⟩)
      (X0 := 500000 + 1 / 32) (X1 := 500000 + 3 / 32) (Y0 := 5000000 + 1 / 32) (Y1 := 5000000 + 3 / 32) (b0 := 254) (b1 := 254) (b2 := 254) (b3 := 0)
      (i0 := ⟨1, 1⟩) (i1 := ⟨0, 1⟩) (i2 := ⟨1, 0⟩) (i3 := ⟨0, 0⟩) (by decide +kernel) (by decide +kernel)
      (by decide +kernel) (by decide +kernel) (by decide +kernel) (by decide +kernel) (by decide +kernel)
      (by decide +kernel) (by decide +kernel) (by decide +kernel) (by decide +kernel) (by decide +kernel)
      (by decide +kernel) (by decide +kernel) (by decide +kernel)
    simp only [atPositionInterpRd, e, Res.bind_ok]
    decide +kernel

/-- A map of 2 x 2 cells of 0.05 around (467, 435), in `double` arithmetic. -/
def Demo.field : CostMap ℚ :=
  let m1 := (CostMap.setGeometryRd toDouble ⟨toDouble (1 / 10), toDouble (1 / 10)⟩ (toDouble (1 / 20)) ⟨467, 435⟩ (CostMap.new [])).2
  (CostMap.add "a" (Mat.ofFn 2 2 fun i j => if i = 1 ∧ j = 1 then 50 else if j = 1 then 0 else if i = 1 then 50 else 254) m1).2

theorem Demo.field_geo : Demo.field.GeoRd toDouble where
  res_pos := by decide +kernel
  size_x := by decide +kernel
  size_y := by decide +kernel
  len_x := by decide +kernel
  len_y := by decide +kernel
  start := by decide +kernel

theorem Demo.field_near : Demo.field.NearOrigin := ⟨by decide +kernel, by decide +kernel⟩

theorem Demo.field_coherent : Demo.field.Coherent := by
  have h0 : (CostMap.new [] : CostMap ℚ).Coherent := CostMap.new_coherent (by simp)
  have h1 := setGeometryRd_coherent toDouble_precision ⟨toDouble (1 / 10), toDouble (1 / 10)⟩ (toDouble (1 / 20)) ⟨467, 435⟩ _ h0
  exact CostMap.add_coherent "a" _ _ h1

/-- The computed coordinates of the rows and columns of `Demo.field`. -/
def Demo.fieldX (u : Int) : ℚ := centreRd toDouble u Demo.field.length.x Demo.field.position.x Demo.field.resolution
/-- The same on the other axis. -/
def Demo.fieldY (u : Int) : ℚ := centreRd toDouble u Demo.field.length.y Demo.field.position.y Demo.field.resolution

/-- C92 is false even near the origin, and with a solver without errors: at the centre of a cell that holds 50 the result is 49. -/
theorem C92_false_centre {solve : Solver ℚ} (hsolve : SolveOk solve) :
    Demo.field.GeoRd toDouble ∧ Demo.field.NearOrigin ∧ Demo.field.startIndex = 0 ∧
    Demo.field.getPositionRd toDouble ⟨1, 1⟩ = some ⟨Demo.fieldX 1, Demo.fieldY 1⟩ ∧ Demo.field.at "a" ⟨1, 1⟩ = .ok 50 ∧
    Demo.field.atPositionInterpRd toDouble toFloat solve "a" ⟨Demo.fieldX 1, Demo.fieldY 1⟩ .linear = .ok 49 := by
  refine ⟨Demo.field_geo, Demo.field_near, by decide +kernel, by decide +kernel, by decide +kernel, ?_⟩
  have e := linearInterpolatedRd_exact hsolve toDouble toFloat (m := Demo.field) (l := "a") (p := ⟨Demo.fieldX 1, Demo.fieldY 1⟩)
    (X0 := Demo.fieldX 1) (X1 := Demo.fieldX 0) (Y0 := Demo.fieldY 1) (Y1 := Demo.fieldY 0) (b0 := 50) (b1 := 0) (b2 := 50) (b3 := 254)
    (i0 := ⟨1, 1⟩) (i1 := ⟨0, 1⟩) (i2 := ⟨1, 0⟩) (i3 := ⟨0, 0⟩) (by decide +kernel) (by decide +kernel)
    (by decide +kernel) (by decide +kernel) (by decide +kernel) (by decide +kernel) (by decide +kernel)
    (by decide +kernel) (by decide +kernel) (by decide +kernel) (by decide +kernel) (by decide +kernel)
    (by decide +kernel) (by decide +kernel) (by decide +kernel)
  simp only [atPositionInterpRd, e, Res.bind_ok]
  decide +kernel

-- the hypotheses of `C92_blend_partial` and `C92_at_centre_partial` hold: that very cell, which may lose one but not more
example {solve : Solver ℚ} (hsolve : SolveOk solve) : ∃ w, Demo.field.atPositionInterpRd toDouble toFloat solve "a"
    ⟨Demo.fieldX 1, Demo.fieldY 1⟩ .linear = .ok w ∧ 49 ≤ w.toNat ∧ w.toNat ≤ 50 := by
  obtain ⟨p, b, w, hp, hb, hw, h1, h2⟩ := C92_at_centre_partial toDouble_precision toFloat_precision Demo.field_geo Demo.field_near
    (hsolve.stable toDouble_precision (by decide +kernel)) Demo.field_coherent (by decide +kernel) (l := "a") (by decide +kernel)
    (i := ⟨1, 1⟩) (by decide +kernel)
  have e1 : Demo.field.getPositionRd toDouble ⟨1, 1⟩ = some ⟨Demo.fieldX 1, Demo.fieldY 1⟩ := by decide +kernel
  have e2 : Demo.field.at "a" ⟨1, 1⟩ = .ok 50 := by decide +kernel
  rw [e1] at hp; cases hp
  rw [e2] at hb; cases hb
  have : (50 : Cost).toNat = 50 := rfl
  exact ⟨w, hw, by omega, by omega⟩

-- and such a solver exists
example : ∃ solve : Solver ℚ, SolveStable toDouble Demo.field.resolution solve := by
  obtain ⟨solve, h⟩ := solveOk_exists (K := ℚ)
  exact ⟨solve, h.stable toDouble_precision (by decide +kernel)⟩

-- the hypotheses of `C92_fallback` hold: at the upper corner of that map
example (solve : Solver ℚ) : Demo.field.atPositionInterpRd toDouble toFloat solve "a" ⟨Demo.fieldX 0, Demo.fieldY 0⟩ .linear = .ok 254 := by
  rw [C92_fallback toDouble toFloat solve Demo.field "a" (i := ⟨0, 0⟩) (c := ⟨Demo.fieldX 0, Demo.fieldY 0⟩) (b := true) (by decide +kernel)
    (by decide +kernel) (.inl (by decide +kernel))]
  decide +kernel

end CostMapModel

import Verif.Lemmas.MachineLine
import Verif.Props.Machine

/-!
# LineIterator between positions in floating point: C93
-/

set_option linter.unusedSectionVars false

namespace CostMapModel
open CostMap
variable {K : Type} [Field K] [LinearOrder K] [IsStrictOrderedRing K] [FloorRing K]

/-- The index of a position that passes the inside test is small. -/
theorem getIndexRd_small {rd : K → K} (hrd : DoublePrecision rd) {m : CostMap K} (h : m.GeoRd rd) (ht : m.Tame) (hm : m.Small)
    {p : Vec K} (hin : m.isInsideRd rd p = true) : (m.getIndexRd rd p).1.Small := by
  simp only [isInsideRd, withinMapRd, Bool.and_eq_true, decide_eq_true_eq] at hin
  obtain ⟨⟨⟨x0, y0⟩, x1⟩, y1⟩ := hin
  obtain ⟨i1, i2, -⟩ := (axis_x h ht).cell_near hrd x0 x1
  obtain ⟨j1, j2, -⟩ := (axis_y h ht).cell_near hrd y0 y1
  have mx := hm.x
  have my := hm.y
  show (bufferIdx _ _ _).Small
  unfold bufferIdx
  split
  · exact ⟨by rw [abs_of_nonneg i1]; exact i2.trans mx, by rw [abs_of_nonneg j1]; exact j2.trans my⟩
  · obtain ⟨a1, a2⟩ := wrap1_range (i := cellRd rd p.x m.length.x m.position.x m.resolution + m.startIndex.x) h.size_x
    obtain ⟨b1, b2⟩ := wrap1_range (i := cellRd rd p.y m.length.y m.position.y m.resolution + m.startIndex.y) h.size_y
    exact ⟨abs_le.2 ⟨le_trans (by norm_num) a1, a2.le.trans mx⟩,
      abs_le.2 ⟨le_trans (by norm_num) b1, b2.le.trans my⟩⟩

/-- The step is a cell, up to rounding. -/
theorem Steppable.setup {rd : K → K} (hrd : DoublePrecision rd) {m : CostMap K} (hr : 1 / 2 ^ 40 ≤ m.resolution) {S B : K}
    {a b : Vec K} (hs : Steppable m S B a b) : LineIter.Setup (LineIter.stepRd rd m) m.resolution S B := by
  have r0 : 0 < m.resolution := lt_of_lt_of_le (by positivity) hr
  have e := hrd (m.resolution - dblEpsilon)
  have eps : (dblEpsilon : K) ≤ m.resolution / 2 ^ 12 := by
    unfold dblEpsilon
    rw [le_div_iff₀ (by positivity)]
    refine le_trans (le_of_eq ?_) hr
    norm_num
  have eps0 : (0 : K) < dblEpsilon := by unfold dblEpsilon; positivity
  have q : m.resolution / 2 ^ 12 = 1 / 4096 * m.resolution := by ring
  have p : |m.resolution - dblEpsilon| / 2 ^ 53 ≤ 1 / 4096 * m.resolution := by
    rw [div_le_iff₀ (by positivity), abs_of_nonneg (by linarith)]
    linarith
  rw [abs_le] at e
  refine ⟨r0, ?_, ?_, hs.cell, hs.le, hs.prod⟩
  · unfold LineIter.stepRd; linarith
  · unfold LineIter.stepRd; linarith

theorem Steppable.symm {m : CostMap K} {S B : K} {a b : Vec K} (hs : Steppable m S B a b) : Steppable m S B b a := by
  obtain ⟨⟨h1, h2, h3, h4, h5, h6⟩, c, l, p⟩ := hs
  exact ⟨⟨h3, h4, h1, h2, by rwa [abs_sub_comm], by rwa [abs_sub_comm]⟩, c, l, p⟩

theorem Apart.symm {m : CostMap K} {a b : Vec K} (h : Apart m a b) : Apart m b a := by
  rcases h with h | h | h
  · exact .inl h.symm
  · exact .inr (.inl (by rwa [abs_sub_comm]))
  · exact .inr (.inr (by rwa [abs_sub_comm]))

theorem Reachable.symm {m : CostMap K} {a b : Vec K} (h : Reachable m a b) : Reachable m b a := ⟨h.bx, h.b_y, h.ax, h.ay⟩

theorem NearSegment.symm {δ : K} {a b p : Vec K} (h : NearSegment δ a b p) : NearSegment δ b a p := by
  obtain ⟨t, h0, h1, hx, hy⟩ := h
  refine ⟨1 - t, by linarith, by linarith, ?_, ?_⟩
  · rwa [show b.x + (1 - t) * (a.x - b.x) = a.x + t * (b.x - a.x) by ring]
  · rwa [show b.y + (1 - t) * (a.y - b.y) = a.y + t * (b.y - a.y) by ring]

theorem Crosses.symm {m : CostMap K} {a b : Vec K} (h : Crosses m a b) : Crosses m b a := by
  obtain ⟨t₀, t₁, h0, h1, hl, w0, w1⟩ := h
  refine ⟨1 - t₁, 1 - t₀, by linarith, by linarith, ?_, ?_, ?_⟩
  · rw [show 1 - t₀ - (1 - t₁) = t₁ - t₀ by ring, abs_sub_comm a.x, abs_sub_comm a.y]
    exact hl
  · rwa [show b.x + (1 - t₁) * (a.x - b.x) = a.x + t₁ * (b.x - a.x) by ring,
      show b.y + (1 - t₁) * (a.y - b.y) = a.y + t₁ * (b.y - a.y) by ring]
  · rwa [show b.x + (1 - t₀) * (a.x - b.x) = a.x + t₀ * (b.x - a.x) by ring,
      show b.y + (1 - t₀) * (a.y - b.y) = a.y + t₀ * (b.y - a.y) by ring]

/-- Between two points well inside, and near, the inside test succeeds. -/
theorem inside_between {rd : K → K} (hrd : DoublePrecision rd) {m : CostMap K} (h : m.GeoRd rd) (ht : m.Tame43)
    {a b p : Vec K} {t₀ t₁ t : K} (h0 : t₀ ≤ t) (h1 : t ≤ t₁)
    (w0 : WellInside (m.resolution / 8) m ⟨a.x + t₀ * (b.x - a.x), a.y + t₀ * (b.y - a.y)⟩)
    (w1 : WellInside (m.resolution / 8) m ⟨a.x + t₁ * (b.x - a.x), a.y + t₁ * (b.y - a.y)⟩)
    (px : |p.x - (a.x + t * (b.x - a.x))| ≤ m.resolution / 16) (py : |p.y - (a.y + t * (b.y - a.y))| ≤ m.resolution / 16) :
    m.isInsideRd rd p = true := by
  have hr := h.res_pos
  have key : ∀ {A d c l P : K}, |A + t₀ * d - c| ≤ l / 2 - m.resolution / 8 → |A + t₁ * d - c| ≤ l / 2 - m.resolution / 8 →
      |P - (A + t * d)| ≤ m.resolution / 16 → |P - c| ≤ l / 2 - m.resolution / 16 := by
    intro A d c l P g0 g1 g2
    rw [abs_le] at g0 g1 g2 ⊢
    rcases le_total 0 d with hd | hd
    · have := mul_le_mul_of_nonneg_right h0 hd
      have := mul_le_mul_of_nonneg_right h1 hd
      constructor <;> linarith
    · have := mul_le_mul_of_nonpos_right h0 hd
      have := mul_le_mul_of_nonpos_right h1 hd
      constructor <;> linarith
  have kx := key w0.x w1.x px
  have ky := key w0.y w1.y py
  have tx : m.tolX ≤ m.resolution / 16 := by
    unfold tolX
    have := ht.x
    rw [div_le_iff₀ (by positivity)]
    linarith
  have ty : m.tolY ≤ m.resolution / 16 := by
    unfold tolY
    have := ht.y
    rw [div_le_iff₀ (by positivity)]
    linarith
  rw [abs_le] at kx ky
  refine (C74_inside hrd h ⟨ht.x.trans ?_, ht.y.trans ?_⟩ p).1 ⟨by linarith, by linarith⟩ ⟨by linarith, by linarith⟩
  · exact mul_le_mul_of_nonneg_right (by norm_num) hr.le
  · exact mul_le_mul_of_nonneg_right (by norm_num) hr.le

/-- One of the two searches. -/
theorem search_spec {rd sqrt : K → K} (hrd : DoublePrecision rd) (hsq : SqrtClose sqrt) {m : CostMap K} (h : m.GeoRd rd)
    (ht : m.Tame43) (hm : m.Small) (hr : 1 / 2 ^ 40 ≤ m.resolution) {S B : K} {a b : Vec K} (hs : Steppable m S B a b)
    (hn : Reachable m a b) (hg : Apart m a b) :
    ∃ k r, (∀ fuel, k ≤ fuel → LineIter.indexLimitedI rd sqrt fuel m a b = .ok r) ∧
      (∀ i, r = some i → ∃ p, NearSegment (m.resolution / 16) a b p ∧ m.isInsideRd rd p = true ∧ (m.getIndexRd rd p).1 = i) ∧
      (Crosses m a b → r ≠ none) := by
  have ht' : m.Tame := by
    refine ⟨ht.x.trans ?_, ht.y.trans ?_⟩
    · exact mul_le_mul_of_nonneg_right (by norm_num) h.res_pos.le
    · exact mul_le_mul_of_nonneg_right (by norm_num) h.res_pos.le
  have st := hs.setup hrd hr
  have S22 := st.S22
  have far : ∀ {P A c : K}, |P - A| ≤ S + m.resolution → |A - c| ≤ 2 ^ 28 * m.resolution → |P - c| ≤ 2 ^ 29 * m.resolution := by
    intro P A c h1 h2
    have : |P - c| ≤ |P - A| + |A - c| := by simpa using abs_add_le (P - A) (A - c)
    have := h.res_pos
    linarith
  obtain ⟨k, r, e1, e2, e3⟩ := LineIter.search_ends hrd hsq st hs.ends hg
    (fun p hx hy => C79_getIndex hrd h ht' hm ⟨far hx hn.ax, far hy hn.ay⟩)
  refine ⟨k, r, e1, fun i hi => ?_, ?_⟩
  · obtain ⟨p, h1, h2⟩ := e2 i hi
    exact ⟨p, h1, congrArg Prod.snd h2, congrArg Prod.fst h2⟩
  · rintro ⟨t₀, t₁, t0, t1, hl, w0, w1⟩ hr0
    obtain ⟨p, t, g0, g1, px, py, hf⟩ := e3 hr0 t₀ t₁ t0 t1 hl
    have : (m.getIndexRd rd p).2 = true := inside_between hrd h ht g0 g1 w0 w1 px py
    rw [hf] at this
    cases this

/-- C93 (partial: positions that coincide or are a quarter of a cell apart; false without that, see `C93_false`). The
constructor of the line iterator between two positions ends. If it finds cells of the map, the line runs between the cells of
two positions in the map that are at most a sixteenth of a cell from the segment; it finds them if the segment crosses the map
for four cells. -/
theorem C93_ends_partial {rd sqrt : K → K} (hrd : DoublePrecision rd) (hsq : SqrtClose sqrt) {m : CostMap K} (h : m.GeoRd rd)
    (ht : m.Tame43) (hm : m.Small) (hr : 1 / 2 ^ 40 ≤ m.resolution) {S B : K} {a b : Vec K} (hs : Steppable m S B a b)
    (hn : Reachable m a b) (hg : Apart m a b) :
    ∃ n r, (∀ fuel, n ≤ fuel → LineIter.ofPositionsI rd sqrt fuel m a b = .ok r) ∧
      (∀ it, r = some it → ∃ p q xs, NearSegment (m.resolution / 16) a b p ∧ NearSegment (m.resolution / 16) a b q ∧
        m.isInsideRd rd p = true ∧ m.isInsideRd rd q = true ∧
        Visits LineIter.opsI it xs ∧ DiscreteLine (m.getIndexRd rd p).1 (m.getIndexRd rd q).1 xs) ∧
      (Crosses m a b → r ≠ none) := by
  have ht' : m.Tame := by
    refine ⟨ht.x.trans ?_, ht.y.trans ?_⟩
    · exact mul_le_mul_of_nonneg_right (by norm_num) h.res_pos.le
    · exact mul_le_mul_of_nonneg_right (by norm_num) h.res_pos.le
  obtain ⟨k1, r1, e1, f1, g1⟩ := search_spec hrd hsq h ht hm hr hs hn hg
  obtain ⟨k2, r2, e2, f2, g2⟩ := search_spec hrd hsq h ht hm hr hs.symm hn.symm hg.symm
  cases r1 with
  | none =>
    refine ⟨k1, none, fun fuel hf => ?_, fun it hi => (by cases hi), fun hc => absurd rfl (g1 hc)⟩
    rw [LineIter.ofPositionsI, e1 fuel hf]; rfl
  | some i =>
    cases r2 with
    | none =>
      refine ⟨max k1 k2, none, fun fuel hf => ?_, fun it hi => (by cases hi), fun hc => absurd rfl (g2 hc.symm)⟩
      rw [LineIter.ofPositionsI, e1 fuel (by omega), Res.bind_ok]
      simp only
      rw [e2 fuel (by omega)]; rfl
    | some j =>
      obtain ⟨p, p1, p2, p3⟩ := f1 i rfl
      obtain ⟨q, q1, q2, q3⟩ := f2 j rfl
      obtain ⟨it, xs, o1, o2, o3⟩ := C79_line (getIndexRd_small hrd h ht' hm p2) (getIndexRd_small hrd h ht' hm q2)
      refine ⟨max k1 k2, some it, fun fuel hf => ?_, fun it' hi => ?_, fun _ => nofun⟩
      · rw [LineIter.ofPositionsI, e1 fuel (by omega), Res.bind_ok]
        simp only
        rw [e2 fuel (by omega), Res.bind_ok]
        simp only
        rw [← p3, ← q3, o1]; rfl
      · cases hi
        exact ⟨p, q, xs, p1, q1.symm, p2, q2, o2, o3⟩

/-- C93. Two positions in the map, at any distance from each other: the constructor ends at once, and the line runs between
their cells. -/
theorem C93_both_inside {rd : K → K} (hrd : DoublePrecision rd) (sqrt : K → K) {m : CostMap K} (h : m.GeoRd rd)
    (ht : m.Tame) (hm : m.Small) {a b : Vec K} (ha : m.isInsideRd rd a = true) (hb : m.isInsideRd rd b = true) :
    ∃ it xs, (∀ fuel, 1 ≤ fuel → LineIter.ofPositionsI rd sqrt fuel m a b = .ok (some it)) ∧ Visits LineIter.opsI it xs ∧
      DiscreteLine (m.getIndexRd rd a).1 (m.getIndexRd rd b).1 xs := by
  obtain ⟨it, xs, o1, o2, o3⟩ := C79_line (getIndexRd_small hrd h ht hm ha) (getIndexRd_small hrd h ht hm hb)
  have key : ∀ {p q : Vec K}, m.isInsideRd rd p = true → ∀ fuel, 1 ≤ fuel →
      LineIter.indexLimitedI rd sqrt fuel m p q = .ok (some (m.getIndexRd rd p).1) := by
    intro p q hp fuel hf
    obtain ⟨f, rfl⟩ : ∃ f, fuel = f + 1 := ⟨fuel - 1, by omega⟩
    rw [LineIter.indexLimitedI, LineIter.searchI, C79_getIndex hrd h ht hm (C79_inside_near hrd h ht hm hp)]
    have : (m.getIndexRd rd p).2 = true := hp
    simp only [this, if_true]
  refine ⟨it, xs, fun fuel hf => ?_, o2, o3⟩
  rw [LineIter.ofPositionsI, key ha fuel hf, Res.bind_ok]
  simp only
  rw [key hb fuel hf, Res.bind_ok]
  simp only
  rw [o1]; rfl

/-! ## binary64 -/

/-- C93. The square root of the machine is precise enough. -/
theorem C93_double : SqrtClose rootDouble := by
  intro x hx
  obtain ⟨N, hN⟩ : ∃ N, N = x.num.toNat * x.den * 4 ^ 60 := ⟨_, rfl⟩
  obtain ⟨s, hs⟩ : ∃ s, s = Nat.sqrt N := ⟨_, rfl⟩
  obtain ⟨y, hy⟩ : ∃ y : ℚ, y = ((s : ℚ) + if s * s = N then 0 else 1 / 2) / 2 ^ 60 / x.den := ⟨_, rfl⟩
  have e : rootDouble x = toDouble y := by rw [hy, hs, hN]; rfl
  have hd : (0 : ℚ) < x.den := by exact_mod_cast x.den_pos
  have hy0 : 0 ≤ y := by
    rw [hy]
    have : (0 : ℚ) ≤ if s * s = N then (0 : ℚ) else 1 / 2 := by split <;> norm_num
    positivity
  have s1 : s * s ≤ N := by rw [hs]; exact Nat.sqrt_le N
  have s2 : N < (s + 1) * (s + 1) := by rw [hs]; exact Nat.lt_succ_sqrt N
  have hNx : (N : ℚ) = x * (x.den * x.den) * 4 ^ 60 := by
    have h1 : ((x.num.toNat : ℤ) : ℚ) = x.num := by
      rw [Int.toNat_of_nonneg (Rat.num_nonneg.2 hx)]
    have h2 : (x.num : ℚ) = x * x.den := (Rat.mul_den_eq_num x).symm
    rw [hN]
    push_cast at h1 ⊢
    rw [h1, h2]
    ring
  -- the value before rounding
  have hyx : |y ^ 2 - x| ≤ x / 2 ^ 56 := by
    have g : |((2 : ℚ) ^ 60 * x.den * y) ^ 2 - N| ≤ N / 2 ^ 56 := by
      have : (2 : ℚ) ^ 60 * x.den * y = (s : ℚ) + if s * s = N then 0 else 1 / 2 := by
        rw [hy]; field_simp
      rw [this]
      split
      · rename_i h
        have : (N : ℚ) = s * s := by exact_mod_cast h.symm
        rw [this, add_zero, sq, sub_self, abs_zero]
        positivity
      · rename_i h
        have hN0 : 0 < N := by omega
        have hN4 : 4 ^ 60 ≤ N := by
          have : 0 < x.num.toNat * x.den := by
            rw [hN] at hN0
            exact Nat.pos_of_mul_pos_right hN0
          rw [hN]
          exact Nat.le_mul_of_pos_left _ this
        have hs60 : 2 ^ 60 ≤ s := by
          rw [hs, Nat.le_sqrt]
          exact le_trans (by norm_num) hN4
        have a1 : (s : ℚ) * s + 1 ≤ N := by exact_mod_cast (show s * s + 1 ≤ N by omega)
        have a2 : (N : ℚ) + 1 ≤ (s + 1) * (s + 1) := by exact_mod_cast s2
        have a3 : (2 : ℚ) ^ 60 ≤ s := by exact_mod_cast hs60
        have a4 : (2 : ℚ) ^ 60 * s ≤ s * s := mul_le_mul_of_nonneg_right a3 (by positivity)
        have a5 : (s : ℚ) + 1 ≤ N / 2 ^ 56 := by
          rw [le_div_iff₀ (by positivity)]
          linarith
        rw [abs_le]
        constructor <;> nlinarith
    have e1 : ((2 : ℚ) ^ 60 * x.den * y) ^ 2 - N = (y ^ 2 - x) * (x.den * x.den * 4 ^ 60) := by rw [hNx]; ring
    have e2 : (N : ℚ) / 2 ^ 56 = x / 2 ^ 56 * (x.den * x.den * 4 ^ 60) := by rw [hNx]; ring
    have hp : (0 : ℚ) < x.den * x.den * 4 ^ 60 := by positivity
    rw [e1, e2, abs_mul, abs_of_pos hp] at g
    exact le_of_mul_le_mul_right g hp
  have hr := toDouble_precision y
  rw [e]
  rw [abs_of_nonneg hy0, abs_le] at hr
  have q : y / 2 ^ 53 ≤ 1 / 2 * y := by rw [div_le_iff₀ (by positivity)]; linarith
  have z0 : 0 ≤ toDouble y := by linarith
  refine ⟨z0, ?_⟩
  have u : |toDouble y ^ 2 - y ^ 2| ≤ y ^ 2 / 2 ^ 51 := by
    have p1 : toDouble y ^ 2 ≤ (y + y / 2 ^ 53) ^ 2 := pow_le_pow_left₀ z0 (by linarith) 2
    have p2 : (y - y / 2 ^ 53) ^ 2 ≤ toDouble y ^ 2 := pow_le_pow_left₀ (by linarith) (by linarith) 2
    have p3 : (y + y / 2 ^ 53) ^ 2 = y ^ 2 * (1 + 1 / 2 ^ 53) ^ 2 := by ring
    have p4 : (y - y / 2 ^ 53) ^ 2 = y ^ 2 * (1 - 1 / 2 ^ 53) ^ 2 := by ring
    have y2 := sq_nonneg y
    rw [p3] at p1
    rw [p4] at p2
    have c1 : y ^ 2 * (1 + 1 / 2 ^ 53) ^ 2 ≤ y ^ 2 * (1 + 1 / 2 ^ 51) := mul_le_mul_of_nonneg_left (by norm_num) y2
    have c2 : y ^ 2 * (1 - 1 / 2 ^ 51) ≤ y ^ 2 * (1 - 1 / 2 ^ 53) ^ 2 := mul_le_mul_of_nonneg_left (by norm_num) y2
    rw [abs_le]
    constructor <;> linarith
  have v : |toDouble y ^ 2 - x| ≤ |toDouble y ^ 2 - y ^ 2| + |y ^ 2 - x| := by
    have := abs_add_le (toDouble y ^ 2 - y ^ 2) (y ^ 2 - x)
    rwa [show toDouble y ^ 2 - y ^ 2 + (y ^ 2 - x) = toDouble y ^ 2 - x by ring] at this
  have w : y ^ 2 ≤ x + x / 2 ^ 56 := by have := (abs_le.1 hyx).2; linarith
  have w2 : y ^ 2 / 2 ^ 51 ≤ (x + x / 2 ^ 56) / 2 ^ 51 := by gcongr
  have w3 : (x + x / 2 ^ 56) / 2 ^ 51 + x / 2 ^ 56 ≤ x / 2 ^ 50 := by
    have : (x + x / 2 ^ 56) / 2 ^ 51 + x / 2 ^ 56 = x * ((1 + 1 / 2 ^ 56) / 2 ^ 51 + 1 / 2 ^ 56) := by ring
    rw [this, show x / 2 ^ 50 = x * (1 / 2 ^ 50) by ring]
    exact mul_le_mul_of_nonneg_left (by norm_num) hx
  linarith

/-! ## The search that does not end -/

namespace Demo

/-- A map of 16 x 16 cells of a quarter around (-10, 0). -/
def quarters : CostMap ℚ := (CostMap.setGeometryRd toDouble ⟨4, 4⟩ (1 / 4) ⟨-10, 0⟩ (CostMap.new [])).2

theorem quarters_geo : quarters.GeoRd toDouble :=
  ⟨by decide +kernel, by decide +kernel, by decide +kernel, by decide +kernel, by decide +kernel, by decide +kernel⟩
theorem quarters_tame : quarters.Tame43 := ⟨by decide +kernel, by decide +kernel⟩
theorem quarters_small : quarters.Small := ⟨by decide +kernel, by decide +kernel⟩

/-- The `double` 0.3. -/
def three : ℚ := toDouble (3 / 10)
/-- The sum of the `double`s 0.1 and 0.2, which is not the `double` 0.3. -/
def oneAndTwo : ℚ := toDouble (toDouble (1 / 10) + toDouble (2 / 10))

end Demo

theorem getIndexI_snd {rd : K → K} {m : CostMap K} {p : Vec K} {i : Idx} {inside : Bool}
    (h : m.getIndexI rd p = some (i, inside)) : inside = m.isInsideRd rd p := by
  unfold getIndexI indexFromPositionI at h
  simp only [Option.bind_eq_some_iff, Option.some.injEq, Prod.mk.injEq] at h
  obtain ⟨_, _, _, _, _, _, _, h⟩ := h
  exact h.symm

/-- To the right of the two positions the search does not end. -/
theorem quarters_loop : ∀ (fuel : Nat) (p : Vec ℚ), 1 / 2 ≤ p.x → p.y = 0 → ∀ r,
    LineIter.searchI toDouble rootDouble Demo.quarters ⟨Demo.oneAndTwo, 0⟩ ⟨1, 0⟩ fuel p ≠ .ok r := by
  intro fuel
  induction fuel with
  | zero => intro p _ _ r h; cases h
  | succ f ih =>
    intro p hp hy r h
    rw [LineIter.searchI] at h
    cases hg : Demo.quarters.getIndexI toDouble p with
    | none => rw [hg] at h; cases h
    | some q =>
      obtain ⟨i, inside⟩ := q
      rw [hg] at h
      have hin : inside = false := by
        rw [getIndexI_snd hg, Bool.eq_false_iff]
        intro hc
        have := ((C74_inside toDouble_precision Demo.quarters_geo
          ⟨by decide +kernel, by decide +kernel⟩ p).2 hc).1.2
        have b : Demo.quarters.position.x + Demo.quarters.length.x / 2 + Demo.quarters.tolX ≤ 0 := by decide +kernel
        linarith
      subst hin
      simp only [Bool.false_eq_true, if_false] at h
      have hs : LineIter.stepRd toDouble Demo.quarters = 1 / 4 - dblEpsilon := by decide +kernel
      have hw : toDouble (LineIter.stepRd toDouble Demo.quarters * 1) = 1 / 4 - dblEpsilon := by decide +kernel
      have hz : toDouble (LineIter.stepRd toDouble Demo.quarters * 0) = 0 := by decide +kernel
      have e : LineIter.advanceRd toDouble Demo.quarters ⟨1, 0⟩ p = ⟨toDouble (p.x + (1 / 4 - dblEpsilon)), 0⟩ := by
        rw [LineIter.advanceRd, hw, hz, hy, add_zero]
        rfl
      rw [e] at h
      obtain ⟨w, hwd⟩ : ∃ w, w = toDouble (p.x + (1 / 4 - dblEpsilon)) := ⟨_, rfl⟩
      rw [← hwd] at h
      have eps : (dblEpsilon : ℚ) = 1 / 4503599627370496 := rfl
      have w1 : 11 / 16 ≤ w := by
        have := toDouble_precision (p.x + (1 / 4 - dblEpsilon))
        rw [← hwd, eps, abs_of_nonneg (a := p.x + (1 / 4 - 1 / 4503599627370496)) (by linarith), abs_le] at this
        have q : (p.x + (1 / 4 - 1 / 4503599627370496)) / 2 ^ 53 ≤ 1 / 64 * (p.x + (1 / 4 - 1 / 4503599627370496)) := by
          rw [div_le_iff₀ (by positivity)]; linarith
        linarith [this.1]
      have hb : Demo.oneAndTwo ≤ 5 / 16 := by decide +kernel
      have d1 := toDouble_precision (Demo.oneAndTwo - w)
      have d2 : |Demo.oneAndTwo - w| = w - Demo.oneAndTwo := by rw [abs_sub_comm, abs_of_nonneg (by linarith)]
      obtain ⟨v, hv⟩ : ∃ v, v = toDouble (Demo.oneAndTwo - w) := ⟨_, rfl⟩
      rw [← hv] at h d1
      rw [d2, abs_le] at d1
      have d3 : (w - Demo.oneAndTwo) / 2 ^ 53 ≤ 1 / 64 * (w - Demo.oneAndTwo) := by
        rw [div_le_iff₀ (by positivity)]; linarith
      have v1 : v ≤ -(3 / 8) + 1 / 128 := by linarith [d1.2]
      have zero : toDouble (0 - 0) = 0 := by decide +kernel
      simp only at h
      rw [zero] at h
      obtain ⟨n0, n1⟩ := LineIter.norm_err toDouble_precision C93_double ⟨v, 0⟩
      simp only at n1
      rw [abs_le] at n1
      have v2 : (1 / 3 : ℚ) * (1 / 3) ≤ v * v := by nlinarith
      have n2 : (v * v + 0 * 0) / 2 ^ 48 ≤ 1 / 64 * (v * v) := by rw [div_le_iff₀ (by positivity)]; nlinarith
      have long : ¬ rootDouble (LineIter.squaredNormRd toDouble ⟨v, 0⟩) < LineIter.stepRd toDouble Demo.quarters := by
        rw [hs]
        intro hlt
        have : rootDouble (LineIter.squaredNormRd toDouble ⟨v, 0⟩) < 1 / 4 := by linarith [show (0 : ℚ) < dblEpsilon by rw [eps]; norm_num]
        have : rootDouble (LineIter.squaredNormRd toDouble ⟨v, 0⟩) ^ 2 < (1 / 4) ^ 2 := by gcongr
        linarith [n1.1]
      rw [if_neg long] at h
      exact ih ⟨w, 0⟩ (by show 1 / 2 ≤ w; linarith) rfl r h

/-- C93 fails for two positions outside the map that differ by a rounding error, 0.3 and 0.1 + 0.2: after the first step the
rest of the way is not shorter than the step, and the search walks away from its goal. -/
theorem C93_false :
    Steppable Demo.quarters (1 / 4) 1 ⟨Demo.three, 0⟩ ⟨Demo.oneAndTwo, 0⟩ ∧
    Reachable Demo.quarters ⟨Demo.three, 0⟩ ⟨Demo.oneAndTwo, 0⟩ ∧
    ∀ fuel r, LineIter.ofPositionsI toDouble rootDouble fuel Demo.quarters ⟨Demo.three, 0⟩ ⟨Demo.oneAndTwo, 0⟩ ≠ .ok r := by
  refine ⟨⟨⟨?_, ?_, ?_, ?_, ?_, ?_⟩, ?_, ?_, ?_⟩, ⟨?_, ?_, ?_, ?_⟩, fun fuel r h => ?_⟩
  all_goals try decide +kernel
  rw [LineIter.ofPositionsI, LineIter.indexLimitedI] at h
  have dir : LineIter.normalizedRd toDouble rootDouble ⟨toDouble (Demo.oneAndTwo - Demo.three), toDouble (0 - 0)⟩ = ⟨1, 0⟩ := by
    decide +kernel
  simp only at h
  rw [dir] at h
  cases fuel with
  | zero => cases h
  | succ f =>
    have first : LineIter.searchI toDouble rootDouble Demo.quarters ⟨Demo.oneAndTwo, 0⟩ ⟨1, 0⟩ (f + 1) ⟨Demo.three, 0⟩ =
        LineIter.searchI toDouble rootDouble Demo.quarters ⟨Demo.oneAndTwo, 0⟩ ⟨1, 0⟩ f
          (LineIter.advanceRd toDouble Demo.quarters ⟨1, 0⟩ ⟨Demo.three, 0⟩) := by
      rw [LineIter.searchI]
      have hg : (Demo.quarters.getIndexI toDouble ⟨Demo.three, 0⟩).map Prod.snd = some false := by decide +kernel
      cases hq : Demo.quarters.getIndexI toDouble ⟨Demo.three, 0⟩ with
      | none => rw [hq] at hg; cases hg
      | some q =>
        rw [hq] at hg
        obtain ⟨i, inside⟩ := q
        simp only [Option.map_some, Option.some.injEq] at hg
        subst hg
        simp only [Bool.false_eq_true, if_false]
        exact if_neg (by decide +kernel)
    rw [first] at h
    cases hr : LineIter.searchI toDouble rootDouble Demo.quarters ⟨Demo.oneAndTwo, 0⟩ ⟨1, 0⟩ f
        (LineIter.advanceRd toDouble Demo.quarters ⟨1, 0⟩ ⟨Demo.three, 0⟩) with
    | ok r' => exact quarters_loop f _ (by decide +kernel) (by decide +kernel) r' hr
    | thrown e => rw [hr] at h; cases h
    | assertFail => rw [hr] at h; cases h
    | ub => rw [hr] at h; cases h
    | outOfFuel => rw [hr] at h; cases h

/-- C93 fails for positions too far away: converting the index of the first one to an `int` overflows. -/
theorem C93_false_far : ∀ fuel, 1 ≤ fuel →
    LineIter.ofPositionsI toDouble rootDouble fuel Demo.quarters ⟨2 ^ 30, 0⟩ ⟨-10, 0⟩ = .ub := by
  intro fuel hf
  obtain ⟨f, rfl⟩ : ∃ f, fuel = f + 1 := ⟨fuel - 1, by omega⟩
  rw [LineIter.ofPositionsI, LineIter.indexLimitedI, LineIter.searchI,
    show Demo.quarters.getIndexI toDouble ⟨2 ^ 30, 0⟩ = none by decide +kernel]
  rfl

/-! ## Instances -/

/-- A segment that runs through the map from both sides, in `double` arithmetic: the constructor finds its cells. -/
example : ∃ n it xs, (∀ fuel, n ≤ fuel →
      LineIter.ofPositionsI toDouble rootDouble fuel Demo.quarters ⟨-13, 1 / 5⟩ ⟨-7, -1 / 5⟩ = .ok (some it)) ∧
    Visits LineIter.opsI it xs := by
  obtain ⟨n, r, h1, h2, h3⟩ := C93_ends_partial toDouble_precision C93_double Demo.quarters_geo Demo.quarters_tame
    Demo.quarters_small (a := ⟨-13, 1 / 5⟩) (b := ⟨-7, -1 / 5⟩) (S := 6) (B := 13) (by decide +kernel)
    ⟨⟨by decide +kernel, by decide +kernel, by decide +kernel, by decide +kernel, by decide +kernel, by decide +kernel⟩,
      by decide +kernel, by decide +kernel, by decide +kernel⟩
    ⟨by decide +kernel, by decide +kernel, by decide +kernel, by decide +kernel⟩ (.inr (.inl (by decide +kernel)))
  cases r with
  | none =>
    refine absurd rfl (h3 ⟨5 / 24, 19 / 24, by norm_num, by norm_num, .inl (by decide +kernel), ⟨by decide +kernel, by decide +kernel⟩,
      ⟨by decide +kernel, by decide +kernel⟩⟩)
  | some it =>
    obtain ⟨p, q, xs, -, -, -, -, h, -⟩ := h2 it rfl
    exact ⟨n, it, xs, h1, h⟩

/-- Twice the same position, outside the map: the constructor gives up. -/
example : ∃ n, ∀ fuel, n ≤ fuel →
    LineIter.ofPositionsI toDouble rootDouble fuel Demo.quarters ⟨3, 3⟩ ⟨3, 3⟩ = .ok none := by
  obtain ⟨n, r, h1, h2, -⟩ := C93_ends_partial toDouble_precision C93_double Demo.quarters_geo Demo.quarters_tame
    Demo.quarters_small (a := ⟨3, 3⟩) (b := ⟨3, 3⟩) (S := 1) (B := 4) (by decide +kernel)
    ⟨⟨by decide +kernel, by decide +kernel, by decide +kernel, by decide +kernel, by decide +kernel, by decide +kernel⟩,
      by decide +kernel, by decide +kernel, by decide +kernel⟩
    ⟨by decide +kernel, by decide +kernel, by decide +kernel, by decide +kernel⟩ (.inl rfl)
  have e : LineIter.ofPositionsI toDouble rootDouble (n + 1) Demo.quarters ⟨3, 3⟩ ⟨3, 3⟩ = .ok none := by
    cases r with
    | none => exact h1 _ (by omega)
    | some it =>
      exfalso
      obtain ⟨p, q, xs, ⟨t, t0, t1, px, py⟩, -, pin, -⟩ := h2 it rfl
      have b := ((C74_inside toDouble_precision Demo.quarters_geo ⟨by decide +kernel, by decide +kernel⟩ p).2 pin).1.2
      have c : Demo.quarters.position.x + Demo.quarters.length.x / 2 + Demo.quarters.tolX ≤ 0 := by decide +kernel
      have d : Demo.quarters.resolution / 16 ≤ 1 := by decide +kernel
      simp only [sub_self, mul_zero, add_zero] at px
      rw [abs_le] at px
      linarith
  have e2 := h1 (n + 1) (by omega)
  rw [e] at e2
  refine ⟨n, fun fuel hf => ?_⟩
  rw [h1 fuel hf, ← e2]

/-- Two positions in the map. -/
example : ∃ it xs, LineIter.ofPositionsI toDouble rootDouble 1 Demo.quarters ⟨-116 / 10, 1 / 5⟩ ⟨-84 / 10, -1 / 5⟩ = .ok (some it) ∧
    Visits LineIter.opsI it xs ∧ xs.length = 14 := by
  obtain ⟨it, xs, h1, h2, h3⟩ := C93_both_inside toDouble_precision rootDouble Demo.quarters_geo
    ⟨by decide +kernel, by decide +kernel⟩ Demo.quarters_small (a := ⟨-116 / 10, 1 / 5⟩) (b := ⟨-84 / 10, -1 / 5⟩)
    (by decide +kernel) (by decide +kernel)
  refine ⟨it, xs, h1 1 le_rfl, h2, ?_⟩
  have := h3.length
  have e : max |(Demo.quarters.getIndexRd toDouble ⟨-84 / 10, -1 / 5⟩).1.x - (Demo.quarters.getIndexRd toDouble ⟨-116 / 10, 1 / 5⟩).1.x|
      |(Demo.quarters.getIndexRd toDouble ⟨-84 / 10, -1 / 5⟩).1.y - (Demo.quarters.getIndexRd toDouble ⟨-116 / 10, 1 / 5⟩).1.y| = 13 := by
    decide +kernel
  rw [e] at this
  omega

end CostMapModel

import Verif.Spec.WayCheck
import Verif.Props.Line
import Verif.Props.Inflation

/-! # C113: checking a straight way on an inflated map -/

set_option linter.unusedSectionVars false

namespace CostMapModel
open Inflation CostMap

section
variable {K : Type} [Field K] [LinearOrder K] [IsStrictOrderedRing K] [FloorRing K]

/-- A chain of neighbours passes through every column (row) between its ends. -/
theorem way_through {f : Idx → Int} (hf : ∀ p q, Neighbours p q → |f q - f p| ≤ 1) {b : Idx} {k : Int} :
    ∀ {xs : List Idx} {a : Idx}, xs.head? = some a → xs.getLast? = some b → xs.IsChain Neighbours →
      min (f a) (f b) ≤ k → k ≤ max (f a) (f b) → ∃ c ∈ xs, f c = k
  | [], a, h, _, _, _, _ => by simp at h
  | [x], a, h, h', _, h1, h2 => by
    simp at h h'
    subst h; subst h'
    exact ⟨x, by simp, by omega⟩
  | x :: y :: r, a, h, h', hc, h1, h2 => by
    simp at h
    subst h
    by_cases hk : f x = k
    · exact ⟨x, by simp, hk⟩
    · rw [List.isChain_cons_cons] at hc
      have hxy := abs_le.mp (hf _ _ hc.1)
      obtain ⟨c, hcm, hck⟩ := way_through (k := k) (b := b) hf (xs := y :: r) (a := y) rfl (by simpa using h') hc.2 (by omega) (by omega)
      exact ⟨c, List.mem_cons_of_mem _ hcm, hck⟩

/-- One axis: in the column `k` of a point of the way, a cell of the line is at most two rows away. -/
theorem way_core {A1 A2 B1 B2 t : K} {c2 : Int} (h0 : 0 ≤ t) (h1 : t ≤ 1) (hne : ⌊B1⌋ ≠ ⌊A1⌋)
    (hmaj : |⌊B2⌋ - ⌊A2⌋| ≤ |⌊B1⌋ - ⌊A1⌋|)
    (hn : 2 * |(⌊A1 + t * (B1 - A1)⌋ - ⌊A1⌋) * (⌊B2⌋ - ⌊A2⌋) - (c2 - ⌊A2⌋) * (⌊B1⌋ - ⌊A1⌋)| ≤ |⌊B1⌋ - ⌊A1⌋|) :
    |⌊A2 + t * (B2 - A2)⌋ - c2| ≤ 2 := by
  have fr : ∀ x : K, 0 ≤ x - ⌊x⌋ ∧ x - ⌊x⌋ < 1 := fun x => ⟨by linarith [Int.floor_le x], by linarith [Int.lt_floor_add_one x]⟩
  have conv : ∀ x y : K, 0 ≤ (x - ⌊x⌋) + t * ((y - ⌊y⌋) - (x - ⌊x⌋)) ∧ (x - ⌊x⌋) + t * ((y - ⌊y⌋) - (x - ⌊x⌋)) < 1 := by
    intro x y
    obtain ⟨x0, x1⟩ := fr x
    obtain ⟨y0, y1⟩ := fr y
    generalize x - ⌊x⌋ = u at *
    generalize y - ⌊y⌋ = v at *
    constructor
    · nlinarith [mul_nonneg (sub_nonneg.mpr h1) x0, mul_nonneg h0 y0]
    · rcases eq_or_lt_of_le h0 with rfl | ht
      · linarith
      · nlinarith [mul_nonneg (sub_nonneg.mpr h1) (sub_nonneg.mpr x1.le), mul_pos ht (sub_pos.mpr y1)]
  set k := ⌊A1 + t * (B1 - A1)⌋ with hk
  obtain ⟨g10, g11⟩ := conv A1 B1
  obtain ⟨g20, g21⟩ := conv A2 B2
  obtain ⟨p0, p1⟩ := fr (A1 + t * (B1 - A1))
  rw [← hk] at p0 p1
  set D1 : K := ((⌊B1⌋ - ⌊A1⌋ : Int) : K) with hD1
  set D2 : K := ((⌊B2⌋ - ⌊A2⌋ : Int) : K) with hD2
  have hD1ne : D1 ≠ 0 := by rw [hD1]; exact_mod_cast sub_ne_zero.mpr hne
  have hpos : 0 < |D1| := abs_pos.mpr hD1ne
  have hsle : |D2 / D1| ≤ 1 := by
    rw [abs_div, div_le_one hpos, hD1, hD2]
    exact_mod_cast hmaj
  have hoff : |((k - ⌊A1⌋ : Int) : K) * (D2 / D1) - ((c2 - ⌊A2⌋ : Int) : K)| ≤ 1 / 2 := by
    have e : ((k - ⌊A1⌋ : Int) : K) * (D2 / D1) - ((c2 - ⌊A2⌋ : Int) : K)
        = (((k - ⌊A1⌋) * (⌊B2⌋ - ⌊A2⌋) - (c2 - ⌊A2⌋) * (⌊B1⌋ - ⌊A1⌋) : Int) : K) / D1 := by
      rw [hD2]; push_cast; field_simp
      rw [hD1]; push_cast; ring
    rw [e, abs_div, div_le_iff₀ hpos]
    have : (2 : K) * |(((k - ⌊A1⌋) * (⌊B2⌋ - ⌊A2⌋) - (c2 - ⌊A2⌋) * (⌊B1⌋ - ⌊A1⌋) : Int) : K)| ≤ |D1| := by
      rw [hD1]; exact_mod_cast hn
    linarith
  set s := D2 / D1 with hs
  have hsD : s * D1 = D2 := by rw [hs]; field_simp
  set q := (A1 + t * (B1 - A1) - (k : K)) - ((A1 - ⌊A1⌋) + t * ((B1 - ⌊B1⌋) - (A1 - ⌊A1⌋))) with hq
  have htD : t * D1 = ((k - ⌊A1⌋ : Int) : K) + q := by rw [hq, hD1]; push_cast; ring
  have hqlt : |q| < 1 := by rw [abs_lt]; constructor <;> rw [hq] <;> linarith
  have hsq : |s * q| < 1 := by
    rw [abs_mul]
    calc |s| * |q| ≤ 1 * |q| := mul_le_mul_of_nonneg_right hsle (abs_nonneg _)
      _ < 1 := by linarith
  have key : A2 + t * (B2 - A2) - (c2 : K) = (((k - ⌊A1⌋ : Int) : K) * s - ((c2 - ⌊A2⌋ : Int) : K)) + s * q
      + ((A2 - ⌊A2⌋) + t * ((B2 - ⌊B2⌋) - (A2 - ⌊A2⌋))) := by
    have e : t * D2 = ((k - ⌊A1⌋ : Int) : K) * s + s * q := by rw [← hsD, mul_left_comm, htD]; ring
    have e' : t * D2 = t * ((⌊B2⌋ : K) - ⌊A2⌋) := by rw [hD2]; push_cast; ring
    rw [e'] at e
    push_cast at e ⊢
    linarith
  obtain ⟨o1, o2⟩ := abs_le.mp hoff
  obtain ⟨q1, q2⟩ := abs_lt.mp hsq
  have lo : ((c2 - 2 : Int) : K) ≤ A2 + t * (B2 - A2) := by push_cast; linarith
  have hi : A2 + t * (B2 - A2) < ((c2 + 3 : Int) : K) := by push_cast; linarith
  have lo' := Int.le_floor.mpr lo
  have hi' := Int.floor_lt.mpr hi
  rw [abs_le]; omega

theorem way_between {A B t : K} (h0 : 0 ≤ t) (h1 : t ≤ 1) :
    min ⌊A⌋ ⌊B⌋ ≤ ⌊A + t * (B - A)⌋ ∧ ⌊A + t * (B - A)⌋ ≤ max ⌊A⌋ ⌊B⌋ := by
  rcases le_total A B with h | h
  · have a1 : A ≤ A + t * (B - A) := by nlinarith [mul_nonneg h0 (sub_nonneg.mpr h)]
    have a2 : A + t * (B - A) ≤ B := by nlinarith [mul_nonneg (sub_nonneg.mpr h1) (sub_nonneg.mpr h)]
    exact ⟨(min_le_left _ _).trans (Int.floor_mono a1), (Int.floor_mono a2).trans (le_max_right _ _)⟩
  · have a1 : B ≤ A + t * (B - A) := by nlinarith [mul_nonneg (sub_nonneg.mpr h1) (sub_nonneg.mpr h)]
    have a2 : A + t * (B - A) ≤ A := by nlinarith [mul_nonneg h0 (sub_nonneg.mpr h)]
    exact ⟨(min_le_right _ _).trans (Int.floor_mono a1), (Int.floor_mono a2).trans (le_max_left _ _)⟩

/-- In cell coordinates: a point between `A` and `B` has a cell of the line at most two cells away. -/
theorem way_near {A B : Vec K} {t : K} (h0 : 0 ≤ t) (h1 : t ≤ 1) {xs : List Idx}
    (h : DiscreteLine ⟨⌊A.x⌋, ⌊A.y⌋⟩ ⟨⌊B.x⌋, ⌊B.y⌋⟩ xs) :
    ∃ i ∈ xs, manhattan ⟨⌊A.x + t * (B.x - A.x)⌋, ⌊A.y + t * (B.y - A.y)⌋⟩ i ≤ 2 := by
  have bx := way_between (A := A.x) (B := B.x) h0 h1
  have bY := way_between (A := A.y) (B := B.y) h0 h1
  by_cases hm : |⌊B.y⌋ - ⌊A.y⌋| ≤ |⌊B.x⌋ - ⌊A.x⌋|
  · obtain ⟨c, hc, hcx⟩ := way_through (f := Idx.x) (fun p q hpq => hpq.2.1) h.first h.last h.chain bx.1 bx.2
    refine ⟨c, hc, ?_⟩
    by_cases hne : ⌊B.x⌋ = ⌊A.x⌋
    · have hbox := h.box c hc
      rw [hne, sub_self, abs_zero] at hm
      have := abs_le.mp hm
      simp only at hbox
      unfold manhattan
      simp only
      omega
    · have hn := h.near c hc
      rw [max_eq_left hm, hcx] at hn
      have := abs_le.mp (way_core h0 h1 hne hm hn)
      unfold manhattan
      simp only
      omega
  · obtain ⟨c, hc, hcy⟩ := way_through (f := Idx.y) (fun p q hpq => hpq.2.2) h.first h.last h.chain bY.1 bY.2
    refine ⟨c, hc, ?_⟩
    have hm' := (not_le.mp hm).le
    have hne : ⌊B.y⌋ ≠ ⌊A.y⌋ := by
      intro e
      rw [e, sub_self, abs_zero] at hm
      exact hm (abs_nonneg _)
    have hn := h.near c hc
    rw [max_eq_right hm', hcy, abs_sub_comm] at hn
    have := abs_le.mp (way_core (A1 := A.y) (A2 := A.x) (B1 := B.y) (B2 := B.x) (c2 := c.x) h0 h1 hne hm'
      (by convert hn using 3))
    unfold manhattan
    simp only
    omega

theorem getIndex_start {m : CostMap K} (hg : m.Geo) (hs : m.startIndex = ⟨0, 0⟩) {p : Vec K} (hp : m.isInside p = true) :
    (m.getIndex p).1 = m.cellU p := by
  have hin := (isInside_iff hg p).mp hp
  rw [getIndex_eq hg hp, bufferIdx_eq hin hg.start]
  obtain ⟨i1, i2, i3, i4⟩ := hin
  rw [hs]
  ext <;> simp only [buf] <;> split <;> omega

/-- C113. The cells the line iterator visits between two positions inside a map that was not moved: every point of the straight way
between them is inside the map, and its cell is at most two steps from a visited one. -/
theorem C113_way (norm : Vec K → K) {m : CostMap K} (hg : m.Geo) (hs : m.startIndex = ⟨0, 0⟩) {a b : Vec K} (ha : m.isInside a = true)
    (hb : m.isInside b = true) :
    ∃ it xs, LineIter.ofPositions norm m a b = .ok (some it) ∧ Visits LineIter.ops it xs ∧
      DiscreteLine (m.getIndex a).1 (m.getIndex b).1 xs ∧
      ∀ p, OnWay a b p → m.isInside p = true ∧ ∃ i ∈ xs, manhattan (m.getIndex p).1 i ≤ 2 := by
  obtain ⟨it, xs, h1, h2, h3⟩ := C21_both_inside (norm := norm) ha hb
  refine ⟨it, xs, h1, h2, h3, ?_⟩
  rintro p ⟨t, t0, t1, rfl⟩
  rw [getIndex_start hg hs ha, getIndex_start hg hs hb] at h3
  have hr := hg.res_pos.ne'
  have ex : ∀ q u v : K, (q - (u + t * (v - u))) / m.resolution
      = (q - u) / m.resolution + t * ((q - v) / m.resolution - (q - u) / m.resolution) := by
    intro q u v; field_simp; ring
  have hcell : m.cellU ⟨a.x + t * (b.x - a.x), a.y + t * (b.y - a.y)⟩ =
      ⟨⌊(m.position.x + m.length.x / 2 - a.x) / m.resolution + t * ((m.position.x + m.length.x / 2 - b.x) / m.resolution -
        (m.position.x + m.length.x / 2 - a.x) / m.resolution)⌋,
       ⌊(m.position.y + m.length.y / 2 - a.y) / m.resolution + t * ((m.position.y + m.length.y / 2 - b.y) / m.resolution -
        (m.position.y + m.length.y / 2 - a.y) / m.resolution)⌋⟩ := by
    unfold cellU
    rw [ex, ex]
  have hin : m.isInside ⟨a.x + t * (b.x - a.x), a.y + t * (b.y - a.y)⟩ = true := by
    rw [isInside_iff hg, hcell]
    obtain ⟨a1, a2, a3, a4⟩ := (isInside_iff hg a).mp ha
    obtain ⟨b1, b2, b3, b4⟩ := (isInside_iff hg b).mp hb
    have bx := way_between (A := (m.position.x + m.length.x / 2 - a.x) / m.resolution)
      (B := (m.position.x + m.length.x / 2 - b.x) / m.resolution) t0 t1
    have bY := way_between (A := (m.position.y + m.length.y / 2 - a.y) / m.resolution)
      (B := (m.position.y + m.length.y / 2 - b.y) / m.resolution) t0 t1
    simp only [cellU] at a1 a2 a3 a4 b1 b2 b3 b4
    refine ⟨?_, ?_, ?_, ?_⟩ <;> simp only <;> omega
  refine ⟨hin, ?_⟩
  rw [getIndex_start hg hs hin, hcell]
  exact way_near (A := ⟨_, _⟩) (B := ⟨_, _⟩) t0 t1 h3

/-- A column between those of the ends is that of some point of the way. -/
theorem way_column {A B : K} {k : Int} (h0 : min ⌊A⌋ ⌊B⌋ ≤ k) (h1 : k ≤ max ⌊A⌋ ⌊B⌋) :
    ∃ t : K, 0 ≤ t ∧ t ≤ 1 ∧ ⌊A + t * (B - A)⌋ = k := by
  by_cases ha : k = ⌊A⌋
  · exact ⟨0, le_rfl, zero_le_one, by rw [zero_mul, add_zero, ha]⟩
  · by_cases hb : k = ⌊B⌋
    · exact ⟨1, zero_le_one, le_rfl, by rw [one_mul, add_sub_cancel, hb]⟩
    · have hcases : (A < k ∧ (k : K) ≤ B) ∨ (B < k ∧ (k : K) ≤ A) := by
        rcases lt_or_ge ⌊A⌋ k with h | h
        · exact .inl ⟨Int.floor_lt.mp h, Int.le_floor.mp (by omega)⟩
        · exact .inr ⟨Int.floor_lt.mp (by omega), Int.le_floor.mp h⟩
      have hne : B - A ≠ 0 := by rcases hcases with h | h <;> intro e <;> linarith [h.1, h.2]
      refine ⟨((k : K) - A) / (B - A), ?_, ?_, ?_⟩
      · rcases hcases with h | h
        · exact div_nonneg (by linarith [h.1]) (by linarith [h.1, h.2])
        · exact div_nonneg_of_nonpos (by linarith [h.2]) (by linarith [h.1, h.2])
      · rcases hcases with h | h
        · rw [div_le_one (by linarith [h.1, h.2])]; linarith [h.2]
        · rw [div_le_one_of_neg (by linarith [h.1, h.2])]; linarith [h.1]
      · rw [div_mul_cancel₀ _ hne, add_sub_cancel, Int.floor_intCast]

/-- In cell coordinates: every cell of the line has a point between `A` and `B` whose cell is at most two cells away. -/
theorem way_back {A B : Vec K} {xs : List Idx} (h : DiscreteLine ⟨⌊A.x⌋, ⌊A.y⌋⟩ ⟨⌊B.x⌋, ⌊B.y⌋⟩ xs) {i : Idx} (hi : i ∈ xs) :
    ∃ t : K, 0 ≤ t ∧ t ≤ 1 ∧ manhattan ⟨⌊A.x + t * (B.x - A.x)⌋, ⌊A.y + t * (B.y - A.y)⌋⟩ i ≤ 2 := by
  obtain ⟨x0, x1, y0, y1⟩ := h.box i hi
  have hn := h.near i hi
  by_cases hm : |⌊B.y⌋ - ⌊A.y⌋| ≤ |⌊B.x⌋ - ⌊A.x⌋|
  · obtain ⟨t, t0, t1, ht⟩ := way_column x0 x1
    refine ⟨t, t0, t1, ?_⟩
    by_cases hne : ⌊B.x⌋ = ⌊A.x⌋
    · have b := way_between (A := A.y) (B := B.y) t0 t1
      rw [hne, sub_self, abs_zero] at hm
      have := abs_le.mp hm
      simp only at y0 y1
      unfold manhattan
      simp only
      omega
    · rw [max_eq_left hm] at hn
      have := abs_le.mp (way_core (c2 := i.y) t0 t1 hne hm (by rw [ht]; exact hn))
      unfold manhattan
      simp only
      omega
  · have hm' := (not_le.mp hm).le
    obtain ⟨t, t0, t1, ht⟩ := way_column y0 y1
    refine ⟨t, t0, t1, ?_⟩
    have hne : ⌊B.y⌋ ≠ ⌊A.y⌋ := by
      intro e
      rw [e, sub_self, abs_zero] at hm
      exact hm (abs_nonneg _)
    rw [max_eq_right hm', abs_sub_comm] at hn
    have := abs_le.mp (way_core (A1 := A.y) (A2 := A.x) (B1 := B.y) (B2 := B.x) (c2 := i.x) t0 t1 hne hm' (by rw [ht]; exact hn))
    unfold manhattan
    simp only
    omega

/-- C113. The other way round: every visited cell is at most two steps from the cell of some point of the way. -/
theorem C113_line_near_way (norm : Vec K → K) {m : CostMap K} (hg : m.Geo) (hs : m.startIndex = ⟨0, 0⟩) {a b : Vec K}
    (ha : m.isInside a = true) (hb : m.isInside b = true) :
    ∃ it xs, LineIter.ofPositions norm m a b = .ok (some it) ∧ Visits LineIter.ops it xs ∧
      DiscreteLine (m.getIndex a).1 (m.getIndex b).1 xs ∧
      ∀ i ∈ xs, ∃ p, OnWay a b p ∧ m.isInside p = true ∧ manhattan (m.getIndex p).1 i ≤ 2 := by
  obtain ⟨it, xs, h1, h2, h3, h4⟩ := C113_way norm hg hs ha hb
  refine ⟨it, xs, h1, h2, h3, fun i hi => ?_⟩
  rw [getIndex_start hg hs ha, getIndex_start hg hs hb] at h3
  obtain ⟨t, t0, t1, ht⟩ := way_back (A := ⟨_, _⟩) (B := ⟨_, _⟩) h3 hi
  have hon : OnWay a b ⟨a.x + t * (b.x - a.x), a.y + t * (b.y - a.y)⟩ := ⟨t, t0, t1, rfl⟩
  have hin := (h4 _ hon).1
  refine ⟨_, hon, hin, ?_⟩
  rw [getIndex_start hg hs hin]
  have hr := hg.res_pos.ne'
  have ex : ∀ q u v : K, (q - (u + t * (v - u))) / m.resolution
      = (q - u) / m.resolution + t * ((q - v) / m.resolution - (q - u) / m.resolution) := by
    intro q u v; field_simp; ring
  unfold cellU
  rw [ex, ex]
  exact ht

/-- The loop of the program on a list of readable cells. -/
theorem wayCells {m : CostMap K} {l : String} {thr : Cost} {cost : Idx → Cost} : ∀ {xs : List Idx},
    (∀ i ∈ xs, m.at l i = .ok (cost i)) → ∀ s : Bool,
      Act.forEach (wayCell m l thr) xs s = (.ok (), s && decide (∀ i ∈ xs, ¬ thr ≤ cost i))
  | [], _, s => by simp [Act.forEach, Act.pure]
  | i :: xs, h, s => by
    have hi : wayCell m l thr i s = (.ok (), if thr ≤ cost i then false else s) := by
      unfold wayCell
      rw [h i (by simp)]
    show Act.bind (wayCell m l thr i) (fun _ => Act.forEach (wayCell m l thr) xs) s = _
    unfold Act.bind
    rw [hi]
    simp only
    rw [wayCells (fun j hj => h j (List.mem_cons_of_mem _ hj))]
    by_cases hc : thr ≤ cost i
    · simp [hc]
    · have hc' : cost i < thr := UInt8.not_le.mp hc
      simp [hc, hc']

theorem line_within {m : CostMap K} {a b : Idx} (ha : a.In m.size) (hb : b.In m.size) {xs : List Idx} (h : DiscreteLine a b xs) :
    xs.length < m.size.x.toNat + m.size.y.toNat + 2 ∧ ∀ i ∈ xs, i.In m.size := by
  obtain ⟨a1, a2, a3, a4⟩ := ha
  obtain ⟨b1, b2, b3, b4⟩ := hb
  constructor
  · have := h.length
    have h1 : |b.x - a.x| ≤ m.size.x := by rw [abs_le]; omega
    have h2 : |b.y - a.y| ≤ m.size.y := by rw [abs_le]; omega
    omega
  · intro i hi
    have := h.box i hi
    refine ⟨?_, ?_, ?_, ?_⟩ <;> omega

/-- The answer of the program: whether every visited cell is below the threshold. -/
theorem wayClear_eq (norm : Vec K → K) {m : CostMap K} (hg : m.Geo) {l : String} {cost : Idx → Cost}
    (hat : ∀ i, i.In m.size → m.at l i = .ok (cost i)) (thr : Cost) {a b : Vec K} {it : LineIter} {xs : List Idx}
    (ha : m.isInside a = true) (hb : m.isInside b = true) (h : LineIter.ofPositions norm m a b = .ok (some it))
    (hv : Visits LineIter.ops it xs) (hl : DiscreteLine (m.getIndex a).1 (m.getIndex b).1 xs) :
    wayClear norm m l thr a b = .ok (decide (∀ i ∈ xs, ¬ thr ≤ cost i)) := by
  obtain ⟨hlen, hin⟩ := line_within (getIndex_in hg ha) (getIndex_in hg hb) hl
  unfold wayClear
  rw [h, Res.bind_ok]
  simp only
  rw [Act.forIter_eq _ hv _ hlen, wayCells (cost := cost) fun i hi => hat i (hin i hi)]
  simp

theorem combined_ge (old cost : Cost) : cost ≤ combined old cost := by
  unfold combined
  split
  · rename_i h
    subst h
    split
    · exact UInt8.le_refl _
    · rw [UInt8.le_iff_toNat_le]
      have := cost.toNat_lt
      show cost.toNat ≤ 255
      omega
  · split
    · assumption
    · exact UInt8.le_refl _

variable {pop : Pop K} {hyp : Nat → Nat → K} {computer : K → Cost} {radius : K} {m : CostMap K} {o : Inflater K}

/-- C113. Inflate a map that was not moved and check a straight way between two positions inside it on the inflated layer. The check
always gives an answer. If the inflation gives at least the threshold up to the radius and the answer is "clear", then every point of the way is
inside the map, and every lethal cell is more than the radius less two cells away from the cell of that point. -/
theorem C113_clearance (norm : Vec K → K) (hg : m.Geo) (hc : m.Coherent) (hs : m.startIndex = ⟨0, 0⟩) {ls : String}
    (hls : m.exists ls = true) (ld : String) (hn : radiusInCells radius m.resolution < 2 ^ 32 - 1) (hpop : PopOk pop)
    (hh : HypOk hyp (radiusInCells radius m.resolution)) (ho : Used hyp computer m.resolution o) (log : List Idx) {thr : Cost}
    (hthr : ∀ d, d ≤ m.resolution * (radiusInCells radius m.resolution : K) → thr ≤ computer d) :
    ∃ st', inflate pop hyp ls ld radius computer ⟨o, m, log⟩ = (.ok (), st') ∧
      ∀ a b, m.isInside a = true → m.isInside b = true → ∃ r, wayClear norm st'.map ld thr a b = .ok r ∧
        (r = true → ∀ p, OnWay a b p → m.isInside p = true ∧
          ∀ L, m.Lethal ls L → radiusInCells radius m.resolution < manhattan (m.getIndex p).1 L + 2) := by
  obtain ⟨st', h1, hgeo, -, -, -, hat⟩ := C38_only_near_obstacles hc hg.res_pos hls ld hn hpop hh ho log
  obtain ⟨st'', h1', hman⟩ := C41_manhattan_range hc hg.res_pos hls ld hn hpop hh ho log
  obtain rfl : st' = st'' := by rw [h1] at h1'; exact (Prod.mk.inj h1').2
  refine ⟨st', h1, fun a b ha hb => ?_⟩
  have hg' := hgeo.geo hg
  have hins : ∀ p, st'.map.isInside p = m.isInside p := fun p => by
    rw [← getIndex_snd, ← getIndex_snd, getIndex_congr hgeo]
  have hread : ∀ i, i.In st'.map.size → ∃ c, st'.map.at ld i = .ok c := by
    intro i hi
    rw [hgeo.size] at hi
    obtain ⟨v, hv⟩ := hc.at_ok hls hi
    rcases hat i v hi hv with h | ⟨q, -, -, h⟩
    · exact ⟨_, h⟩
    · exact ⟨_, h⟩
  classical
  obtain ⟨cost, hcost⟩ : ∃ cost : Idx → Cost, ∀ i, i.In st'.map.size → st'.map.at ld i = .ok (cost i) :=
    ⟨fun i => if hi : i.In st'.map.size then (hread i hi).choose else 0, fun i hi => by
      simp only [hi, dif_pos]; exact (hread i hi).choose_spec⟩
  obtain ⟨it, xs, w1, w2, w3, w4⟩ := C113_way norm hg' (hgeo.startIndex.trans hs) (a := a) (b := b) (by rw [hins, ha]) (by rw [hins, hb])
  have hin := (line_within (getIndex_in hg' (by rw [hins, ha])) (getIndex_in hg' (by rw [hins, hb])) w3).2
  refine ⟨_, wayClear_eq norm hg' hcost thr (by rw [hins, ha]) (by rw [hins, hb]) w1 w2 w3, fun hr p hp => ?_⟩
  obtain ⟨p1, i, hi, hd⟩ := w4 p hp
  refine ⟨by rw [← hins, p1], fun L hL => ?_⟩
  by_contra hfar
  rw [getIndex_congr hgeo] at hd
  have hiL : manhattan i L ≤ radiusInCells radius m.resolution := by
    generalize radiusInCells radius m.resolution = n at hfar
    generalize (m.getIndex p).1 = c at hd hfar
    unfold manhattan at hd hfar ⊢
    omega
  have him : i.In m.size := by rw [← hgeo.size]; exact hin i hi
  obtain ⟨v, hv⟩ := hc.at_ok hls him
  obtain ⟨-, q, hq, hsq, -, hval⟩ := hman i v L him hv hL hiL
  have hcl : ¬ thr ≤ cost i := of_decide_eq_true hr i hi
  rw [hcost i (hin i hi)] at hval
  injection hval with hval
  apply hcl
  rw [hval]
  refine UInt8.le_trans ?_ (combined_ge _ _)
  apply hthr
  refine mul_le_mul_of_nonneg_left ?_ hg.res_pos.le
  generalize hN : radiusInCells radius m.resolution = N at *
  have hle : sqDist i q ≤ N * N := hsq.trans (Nat.mul_le_mul hiL hiL)
  unfold sqDist at hle
  refine (hh _ _ N ?_ ?_ le_rfl).mpr hle
  · nlinarith [Nat.zero_le ((i.y - q.y).natAbs * (i.y - q.y).natAbs)]
  · nlinarith [Nat.zero_le ((i.x - q.x).natAbs * (i.x - q.x).natAbs)]

/-- C113. With a radius of at least two cells a way that is found clear meets no lethal cell. -/
theorem C113_clear (norm : Vec K → K) (hg : m.Geo) (hc : m.Coherent) (hs : m.startIndex = ⟨0, 0⟩) {ls : String}
    (hls : m.exists ls = true) (ld : String) (hn : radiusInCells radius m.resolution < 2 ^ 32 - 1) (hpop : PopOk pop)
    (hh : HypOk hyp (radiusInCells radius m.resolution)) (ho : Used hyp computer m.resolution o) (log : List Idx) {thr : Cost}
    (hthr : ∀ d, d ≤ m.resolution * (radiusInCells radius m.resolution : K) → thr ≤ computer d)
    (h2 : 2 ≤ radiusInCells radius m.resolution) :
    ∃ st', inflate pop hyp ls ld radius computer ⟨o, m, log⟩ = (.ok (), st') ∧
      ∀ a b, m.isInside a = true → m.isInside b = true → ∃ r, wayClear norm st'.map ld thr a b = .ok r ∧
        (r = true → ∀ p, OnWay a b p → ∃ c, m.atPosition ls p = .ok c ∧ c ≠ LETHAL_OBSTACLE) := by
  obtain ⟨st', h1, h⟩ := C113_clearance norm hg hc hs hls ld hn hpop hh ho log hthr
  refine ⟨st', h1, fun a b ha hb => ?_⟩
  obtain ⟨r, hr, h⟩ := h a b ha hb
  refine ⟨r, hr, fun hrt p hp => ?_⟩
  obtain ⟨p1, p2⟩ := h hrt p hp
  have hin := getIndex_in hg p1
  obtain ⟨c, hcv⟩ := hc.at_ok hls hin
  refine ⟨c, by rw [atPosition_inside p1, hcv], ?_⟩
  rintro rfl
  have := p2 _ ⟨hin, hcv⟩
  unfold manhattan at this
  omega

/-- C113. The check does not cry wolf: if the cells within two steps of the way are below the threshold and out of reach of every obstacle,
the answer is "clear". -/
theorem C113_complete (norm : Vec K → K) (hg : m.Geo) (hc : m.Coherent) (hs : m.startIndex = ⟨0, 0⟩) {ls : String}
    (hls : m.exists ls = true) (ld : String) (hn : radiusInCells radius m.resolution < 2 ^ 32 - 1) (hpop : PopOk pop)
    (hh : HypOk hyp (radiusInCells radius m.resolution)) (ho : Used hyp computer m.resolution o) (log : List Idx) (thr : Cost) :
    ∃ st', inflate pop hyp ls ld radius computer ⟨o, m, log⟩ = (.ok (), st') ∧
      ∀ a b, m.isInside a = true → m.isInside b = true →
        (∀ p, OnWay a b p → ∀ i, i.In m.size → manhattan (m.getIndex p).1 i ≤ 2 →
          (∃ c, m.at ls i = .ok c ∧ c < thr) ∧
            ∀ L, m.Lethal ls L → radiusInCells radius m.resolution * radiusInCells radius m.resolution < sqDist i L) →
        wayClear norm st'.map ld thr a b = .ok true := by
  obtain ⟨st', h1, hgeo, -, -, -, hat⟩ := C38_only_near_obstacles hc hg.res_pos hls ld hn hpop hh ho log
  refine ⟨st', h1, fun a b ha hb hfree => ?_⟩
  have hg' := hgeo.geo hg
  have hins : ∀ p, st'.map.isInside p = m.isInside p := fun p => by
    rw [← getIndex_snd, ← getIndex_snd, getIndex_congr hgeo]
  have hread : ∀ i, i.In st'.map.size → ∃ c, st'.map.at ld i = .ok c := by
    intro i hi
    rw [hgeo.size] at hi
    obtain ⟨v, hv⟩ := hc.at_ok hls hi
    rcases hat i v hi hv with h | ⟨q, -, -, h⟩
    · exact ⟨_, h⟩
    · exact ⟨_, h⟩
  classical
  obtain ⟨cost, hcost⟩ : ∃ cost : Idx → Cost, ∀ i, i.In st'.map.size → st'.map.at ld i = .ok (cost i) :=
    ⟨fun i => if hi : i.In st'.map.size then (hread i hi).choose else 0, fun i hi => by
      simp only [hi, dif_pos]; exact (hread i hi).choose_spec⟩
  obtain ⟨it, xs, w1, w2, w3, w4⟩ := C113_line_near_way norm hg' (hgeo.startIndex.trans hs) (a := a) (b := b) (by rw [hins, ha])
    (by rw [hins, hb])
  have hin := (line_within (getIndex_in hg' (by rw [hins, ha])) (getIndex_in hg' (by rw [hins, hb])) w3).2
  rw [wayClear_eq norm hg' hcost thr (by rw [hins, ha]) (by rw [hins, hb]) w1 w2 w3]
  congr 1
  refine decide_eq_true fun i hi => ?_
  obtain ⟨p, hp, -, hd⟩ := w4 i hi
  rw [getIndex_congr hgeo] at hd
  have him : i.In m.size := by rw [← hgeo.size]; exact hin i hi
  obtain ⟨⟨c, hcv, hlt⟩, hfar⟩ := hfree p hp i him hd
  rcases hat i c him hcv with h | ⟨q, hq, hqd, -⟩
  · rw [hcost i (hin i hi)] at h
    injection h with h
    rw [h]
    exact UInt8.not_le.mpr hlt
  · exact absurd hqd (not_le.mpr (hfar q hq))

end

namespace Demo

/-- One obstacle beside the line from cell (3, 4) to cell (0, 0). -/
def pillar : CostMap ℚ := grid 5 5 fun i j => if i = 3 ∧ j = 2 then 254 else 0

theorem pillar_coherent : pillar.Coherent := grid_coherent _ _ _

theorem pillar_geo : pillar.Geo :=
  ⟨by decide +kernel, by decide +kernel, by decide +kernel, by decide +kernel, by decide +kernel, by decide +kernel⟩

theorem pillar_start : pillar.startIndex = ⟨0, 0⟩ := by decide +kernel

theorem pillar_lethal {q : Idx} (h : pillar.Lethal "s" q) : q = ⟨3, 2⟩ := by
  have key : ∀ q ∈ colMajor 5 5, pillar.at "s" q = .ok LETHAL_OBSTACLE → q = ⟨3, 2⟩ := by decide +kernel
  refine key q (mem_colMajor.mpr ?_) h.2
  have hq := h.1
  rw [show pillar.size = ⟨5, 5⟩ from by decide +kernel] at hq
  unfold Idx.In at hq
  simp only at hq
  omega

theorem pillar_line : Visits LineIter.ops (LineIter.ofIndices ⟨3, 4⟩ ⟨0, 0⟩)
    [⟨3, 4⟩, ⟨2, 3⟩, ⟨1, 2⟩, ⟨1, 1⟩, ⟨0, 0⟩] := by
  refine .step (by decide) (by decide) rfl (.step (by decide) (by decide) rfl (.step (by decide) (by decide) rfl
    (.step (by decide) (by decide) rfl (.step (by decide) (by decide) rfl (.done (by decide))))))

end Demo

/-- C113 needs the radius of two cells: inflated by one cell, with whatever queue, distances, computer and threshold, the way between these two
positions is found clear although it leads through a lethal cell. -/
theorem C113_false :
    ∃ (m : CostMap ℚ) (a b p : Vec ℚ), m.Geo ∧ m.Coherent ∧ m.startIndex = ⟨0, 0⟩ ∧ m.exists "s" = true ∧ m.isInside a = true ∧
      m.isInside b = true ∧ OnWay a b p ∧ m.atPosition "s" p = .ok LETHAL_OBSTACLE ∧ radiusInCells 1 m.resolution = 1 ∧
      ∀ (norm : Vec ℚ → ℚ) (pop : Pop ℚ) (hyp : Nat → Nat → ℚ) (computer : ℚ → Cost) (thr : Cost), PopOk pop → HypOk hyp 1 →
        FREE_SPACE < thr → ∃ st', inflate pop hyp "s" "t" 1 computer ⟨Inflater.new, m, []⟩ = (.ok (), st') ∧
          wayClear norm st'.map "t" thr a b = .ok true := by
  have ha : Demo.pillar.isInside ⟨-7 / 5, -8 / 5⟩ = true := by decide +kernel
  have hb : Demo.pillar.isInside ⟨8 / 5, 12 / 5⟩ = true := by decide +kernel
  have hrad : radiusInCells 1 Demo.pillar.resolution = 1 := by decide +kernel
  refine ⟨Demo.pillar, ⟨-7 / 5, -8 / 5⟩, ⟨8 / 5, 12 / 5⟩, ⟨-14 / 25, -12 / 25⟩, Demo.pillar_geo, Demo.pillar_coherent, Demo.pillar_start,
    by decide +kernel, ha, hb, ⟨7 / 25, by norm_num, by norm_num, by ext <;> norm_num⟩, by decide +kernel, hrad, ?_⟩
  intro norm pop hyp computer thr hpop hh hthr
  obtain ⟨st', h1, hgeo, -, -, -, hat⟩ := C38_only_near_obstacles (radius := (1 : ℚ)) (computer := computer) Demo.pillar_coherent
    Demo.pillar_geo.res_pos (ls := "s") (by decide +kernel) "t" (by rw [hrad]; decide) hpop (by rw [hrad]; exact hh) .new []
  refine ⟨st', h1, ?_⟩
  have hins : ∀ p, st'.map.isInside p = Demo.pillar.isInside p := fun p => by
    rw [← getIndex_snd, ← getIndex_snd, getIndex_congr hgeo]
  have hread : ∀ i, i.In Demo.pillar.size → ∃ c, st'.map.at "t" i = .ok c := by
    intro i hi
    obtain ⟨v, hv⟩ := Demo.pillar_coherent.at_ok (l := "s") (by decide +kernel) hi
    rcases hat i v hi hv with h | ⟨q, -, -, h⟩
    · exact ⟨_, h⟩
    · exact ⟨_, h⟩
  classical
  obtain ⟨cost, hcost⟩ : ∃ cost : Idx → Cost, ∀ i, i.In Demo.pillar.size → st'.map.at "t" i = .ok (cost i) :=
    ⟨fun i => if hi : i.In Demo.pillar.size then (hread i hi).choose else 0, fun i hi => by
      simp only [hi, dif_pos]; exact (hread i hi).choose_spec⟩
  have ga : (Demo.pillar.getIndex ⟨-7 / 5, -8 / 5⟩).1 = ⟨3, 4⟩ := by decide +kernel
  have gb : (Demo.pillar.getIndex ⟨8 / 5, 12 / 5⟩).1 = ⟨0, 0⟩ := by decide +kernel
  obtain ⟨xs, w1, w2⟩ := C20_line ⟨3, 4⟩ ⟨0, 0⟩
  have hxs := w1.unique Demo.pillar_line
  have hit : LineIter.ofPositions norm st'.map ⟨-7 / 5, -8 / 5⟩ ⟨8 / 5, 12 / 5⟩ = .ok (some (LineIter.ofIndices ⟨3, 4⟩ ⟨0, 0⟩)) := by
    unfold LineIter.ofPositions
    rw [indexLimited_inside (by rw [hins, ha]), Res.bind_ok]
    simp only [indexLimited_inside (show st'.map.isInside ⟨8 / 5, 12 / 5⟩ = true by rw [hins, hb]), Res.bind_ok]
    rw [getIndex_congr hgeo, getIndex_congr hgeo, ga, gb]
  rw [wayClear_eq norm (hgeo.geo Demo.pillar_geo) (by rw [hgeo.size]; exact hcost) thr (by rw [hins, ha]) (by rw [hins, hb]) hit w1
    (by rw [getIndex_congr hgeo, getIndex_congr hgeo, ga, gb]; exact w2)]
  congr 1
  refine decide_eq_true ?_
  intro i hi
  rw [hxs] at hi
  have hfree : ∀ i ∈ [(⟨3, 4⟩ : Idx), ⟨2, 3⟩, ⟨1, 2⟩, ⟨1, 1⟩, ⟨0, 0⟩], i.In Demo.pillar.size ∧ Demo.pillar.at "s" i = .ok FREE_SPACE ∧
      1 < sqDist i ⟨3, 2⟩ := by decide +kernel
  obtain ⟨f1, f2, f3⟩ := hfree i hi
  have hc : cost i = FREE_SPACE := by
    have hci := hcost i f1
    rcases hat i _ f1 f2 with h | ⟨q, hq, hd, -⟩
    · rw [hci] at h; injection h
    · rw [hrad, Demo.pillar_lethal hq] at hd
      omega
  rw [hc]
  exact UInt8.not_le.mpr hthr

namespace Demo

/-- A row of cells whose buffer starts at cell (3, 0), with an obstacle at x = -1. -/
def corridor : CostMap ℚ := (grid 9 1 fun i _ => if i = 8 then 254 else 0).setStartIndex ⟨3, 0⟩

theorem corridor_coherent : corridor.Coherent :=
  have h := grid_coherent 9 1 (fun i _ => if i = 8 then 254 else 0)
  ⟨h.nodup, h.mem_iff, h.dims⟩

theorem corridor_geo : corridor.Geo :=
  ⟨by decide +kernel, by decide +kernel, by decide +kernel, by decide +kernel, by decide +kernel, by decide +kernel⟩

theorem corridor_lethal {q : Idx} (h : corridor.Lethal "s" q) : q = ⟨8, 0⟩ := by
  have key : ∀ q ∈ colMajor 9 1, corridor.at "s" q = .ok LETHAL_OBSTACLE → q = ⟨8, 0⟩ := by decide +kernel
  refine key q (mem_colMajor.mpr ?_) h.2
  have hq := h.1
  rw [show corridor.size = ⟨9, 1⟩ from by decide +kernel] at hq
  unfold Idx.In at hq
  simp only at hq
  omega

theorem corridor_line : Visits LineIter.ops (LineIter.ofIndices ⟨5, 0⟩ ⟨2, 0⟩) [⟨5, 0⟩, ⟨4, 0⟩, ⟨3, 0⟩, ⟨2, 0⟩] := by
  refine .step (by decide) (by decide) rfl (.step (by decide) (by decide) rfl (.step (by decide) (by decide) rfl
    (.step (by decide) (by decide) rfl (.done (by decide)))))

end Demo

/-- C113 needs the buffer to start at zero: on this map, inflated by two cells with whatever queue, distances, computer and threshold, the
straight way between these two positions is found clear although it leads through a lethal cell. The line runs through the buffer, the
other way around. -/
theorem C113_false_moved :
    ∃ (m : CostMap ℚ) (a b p : Vec ℚ), m.Geo ∧ m.Coherent ∧ m.exists "s" = true ∧ m.isInside a = true ∧
      m.isInside b = true ∧ OnWay a b p ∧ m.atPosition "s" p = .ok LETHAL_OBSTACLE ∧ radiusInCells 2 m.resolution = 2 ∧
      ∀ (norm : Vec ℚ → ℚ) (pop : Pop ℚ) (hyp : Nat → Nat → ℚ) (computer : ℚ → Cost) (thr : Cost), PopOk pop → HypOk hyp 2 →
        FREE_SPACE < thr → ∃ st', inflate pop hyp "s" "t" 2 computer ⟨Inflater.new, m, []⟩ = (.ok (), st') ∧
          wayClear norm st'.map "t" thr a b = .ok true := by
  have ha : Demo.corridor.isInside ⟨2, 0⟩ = true := by decide +kernel
  have hb : Demo.corridor.isInside ⟨-4, 0⟩ = true := by decide +kernel
  have hrad : radiusInCells 2 Demo.corridor.resolution = 2 := by decide +kernel
  refine ⟨Demo.corridor, ⟨2, 0⟩, ⟨-4, 0⟩, ⟨-1, 0⟩, Demo.corridor_geo, Demo.corridor_coherent,
    by decide +kernel, ha, hb, ⟨1 / 2, by norm_num, by norm_num, by ext <;> norm_num⟩, by decide +kernel, hrad, ?_⟩
  intro norm pop hyp computer thr hpop hh hthr
  obtain ⟨st', h1, hgeo, -, -, -, hat⟩ := C38_only_near_obstacles (radius := (2 : ℚ)) (computer := computer) Demo.corridor_coherent
    Demo.corridor_geo.res_pos (ls := "s") (by decide +kernel) "t" (by rw [hrad]; decide) hpop (by rw [hrad]; exact hh) .new []
  refine ⟨st', h1, ?_⟩
  have hins : ∀ p, st'.map.isInside p = Demo.corridor.isInside p := fun p => by
    rw [← getIndex_snd, ← getIndex_snd, getIndex_congr hgeo]
  have hread : ∀ i, i.In Demo.corridor.size → ∃ c, st'.map.at "t" i = .ok c := by
    intro i hi
    obtain ⟨v, hv⟩ := Demo.corridor_coherent.at_ok (l := "s") (by decide +kernel) hi
    rcases hat i v hi hv with h | ⟨q, -, -, h⟩
    · exact ⟨_, h⟩
    · exact ⟨_, h⟩
  classical
  obtain ⟨cost, hcost⟩ : ∃ cost : Idx → Cost, ∀ i, i.In Demo.corridor.size → st'.map.at "t" i = .ok (cost i) :=
    ⟨fun i => if hi : i.In Demo.corridor.size then (hread i hi).choose else 0, fun i hi => by
      simp only [hi, dif_pos]; exact (hread i hi).choose_spec⟩
  have ga : (Demo.corridor.getIndex ⟨2, 0⟩).1 = ⟨5, 0⟩ := by decide +kernel
  have gb : (Demo.corridor.getIndex ⟨-4, 0⟩).1 = ⟨2, 0⟩ := by decide +kernel
  obtain ⟨xs, w1, w2⟩ := C20_line ⟨5, 0⟩ ⟨2, 0⟩
  have hxs := w1.unique Demo.corridor_line
  have hit : LineIter.ofPositions norm st'.map ⟨2, 0⟩ ⟨-4, 0⟩ = .ok (some (LineIter.ofIndices ⟨5, 0⟩ ⟨2, 0⟩)) := by
    unfold LineIter.ofPositions
    rw [indexLimited_inside (by rw [hins, ha]), Res.bind_ok]
    simp only [indexLimited_inside (show st'.map.isInside ⟨-4, 0⟩ = true by rw [hins, hb]), Res.bind_ok]
    rw [getIndex_congr hgeo, getIndex_congr hgeo, ga, gb]
  rw [wayClear_eq norm (hgeo.geo Demo.corridor_geo) (by rw [hgeo.size]; exact hcost) thr (by rw [hins, ha]) (by rw [hins, hb]) hit w1
    (by rw [getIndex_congr hgeo, getIndex_congr hgeo, ga, gb]; exact w2)]
  congr 1
  refine decide_eq_true ?_
  intro i hi
  rw [hxs] at hi
  have hfree : ∀ i ∈ [(⟨5, 0⟩ : Idx), ⟨4, 0⟩, ⟨3, 0⟩, ⟨2, 0⟩], i.In Demo.corridor.size ∧ Demo.corridor.at "s" i = .ok FREE_SPACE ∧
      4 < sqDist i ⟨8, 0⟩ := by decide +kernel
  obtain ⟨f1, f2, f3⟩ := hfree i hi
  have hc : cost i = FREE_SPACE := by
    have hci := hcost i f1
    rcases hat i _ f1 f2 with h | ⟨q, hq, hd, -⟩
    · rw [hci] at h; injection h
    · rw [hrad, Demo.corridor_lethal hq] at hd
      omega
  rw [hc]
  exact UInt8.not_le.mpr hthr

/-- A computer that gives an inscribed cost up to three cells. -/
def Demo.broad (d : ℚ) : Cost := if d ≤ 3 then 253 else 0

open Demo in
example := C113_clearance (radius := 3) (computer := broad) (thr := 253) (fun _ => 1) pillar_geo pillar_coherent pillar_start (ls := "s")
  (by decide +kernel) "t" (by rw [show radiusInCells 3 pillar.resolution = 3 from by decide +kernel]; decide) pop_ok (hyp_ok _) .new []
  (by
    intro d hd
    rw [show pillar.resolution = 1 from by decide +kernel, show radiusInCells (3 : ℚ) 1 = 3 from by decide +kernel] at hd
    unfold broad
    rw [if_pos (by push_cast at hd; linarith)]
    decide)
open Demo in
/-- Inflated by two cells, the way through the obstacle is not clear, and one along the far side is. -/
example : ∃ st', inflate pop hyp "s" "t" 2 broad ⟨Inflater.new, pillar, []⟩ = (.ok (), st') ∧
    wayClear (fun _ => 1) st'.map "t" 253 ⟨-7 / 5, -8 / 5⟩ ⟨8 / 5, 12 / 5⟩ = .ok false ∧
    wayClear (fun _ => 1) st'.map "t" 253 ⟨2, -2⟩ ⟨21 / 10, 2⟩ = .ok true := by
  refine ⟨_, Prod.ext (by decide +kernel) rfl, ?_, ?_⟩ <;> decide +kernel

open Demo in
/-- Inflated by one cell: the way along the first row is out of reach of the obstacle. -/
example : ∃ st', inflate pop hyp "s" "t" 1 broad ⟨Inflater.new, pillar, []⟩ = (.ok (), st') ∧
    wayClear (fun _ => 1) st'.map "t" 253 ⟨2, 2⟩ ⟨2, 21 / 10⟩ = .ok true := by
  have hrad : radiusInCells 1 pillar.resolution = 1 := by decide +kernel
  obtain ⟨st', h1, h2⟩ := C113_complete (radius := 1) (computer := broad) (fun _ => 1) pillar_geo pillar_coherent pillar_start (ls := "s")
    (by decide +kernel) "t" (by rw [hrad]; decide) pop_ok (hyp_ok _) .new [] 253
  refine ⟨st', h1, h2 _ _ (by decide +kernel) (by decide +kernel) ?_⟩
  rintro p ⟨t, t0, t1, rfl⟩ i hi hd
  have hcell : (pillar.getIndex ⟨2 + t * (2 - 2), 2 + t * (21 / 10 - 2)⟩).1 = ⟨0, 0⟩ := by
    have hp : pillar.cellU ⟨2 + t * (2 - 2), 2 + t * (21 / 10 - 2)⟩ = ⟨0, 0⟩ := by
      unfold cellU
      rw [show pillar.position = ⟨0, 0⟩ from by decide +kernel, show pillar.length = ⟨5, 5⟩ from by decide +kernel,
        show pillar.resolution = 1 from by decide +kernel]
      ext
      · rw [Int.floor_eq_iff]; constructor <;> norm_num
      · rw [Int.floor_eq_iff]; constructor <;> norm_num <;> linarith
    have hin : pillar.isInside ⟨2 + t * (2 - 2), 2 + t * (21 / 10 - 2)⟩ = true := by
      rw [isInside_iff pillar_geo, hp]; decide +kernel
    rw [getIndex_start pillar_geo pillar_start hin, hp]
  rw [hcell] at hd
  have key : ∀ i ∈ colMajor 5 5, manhattan ⟨0, 0⟩ i ≤ 2 → pillar.at "s" i = .ok 0 ∧ 1 < sqDist i ⟨3, 2⟩ := by decide +kernel
  have himem : i ∈ colMajor 5 5 := by
    rw [mem_colMajor]
    rw [show pillar.size = ⟨5, 5⟩ from by decide +kernel] at hi
    unfold Idx.In at hi
    simp only at hi
    omega
  obtain ⟨k1, k2⟩ := key i himem hd
  refine ⟨⟨0, k1, by decide⟩, fun L hL => ?_⟩
  rw [pillar_lethal hL, hrad]
  exact k2

end CostMapModel

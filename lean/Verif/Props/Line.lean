import Verif.Lemmas.Line
import Verif.Props.Geometry
import Mathlib.Data.List.Range

/-!
# LineIterator: C20, C21, C62
-/

set_option linter.unusedSectionVars false

namespace CostMapModel
open CostMap
variable {K : Type} [Field K] [LinearOrder K] [IsStrictOrderedRing K] [FloorRing K]

/-- Two different cells that touch at least at a corner. -/
def Neighbours (p q : Idx) : Prop := p ≠ q ∧ |q.x - p.x| ≤ 1 ∧ |q.y - p.y| ≤ 1

/-- `xs` is a discrete straight line from `a` to `b`: one cell per step along the longer axis, starting at `a`,
ending at `b`, made of neighbours, inside the box spanned by `a` and `b`, and nowhere further than half a
cell (measured along the shorter axis) from the ideal segment. The last condition is multiplied by the
length of the longer axis: the offset from the segment at `c` times that length is the cross product. -/
structure DiscreteLine (a b : Idx) (xs : List Idx) : Prop where
  length : (xs.length : Int) = max |b.x - a.x| |b.y - a.y| + 1
  first : xs.head? = some a
  last : xs.getLast? = some b
  chain : xs.IsChain Neighbours
  nodup : xs.Nodup
  box : ∀ c ∈ xs, min a.x b.x ≤ c.x ∧ c.x ≤ max a.x b.x ∧ min a.y b.y ≤ c.y ∧ c.y ≤ max a.y b.y
  near : ∀ c ∈ xs, 2 * |(c.x - a.x) * (b.y - a.y) - (c.y - a.y) * (b.x - a.x)| ≤ max |b.x - a.x| |b.y - a.y|

theorem sign_mul_abs (a b : Int) : (if b ≥ a then (1 : Int) else -1) * |b - a| = b - a := by
  split
  · rw [abs_of_nonneg (by omega)]; ring
  · rw [abs_of_neg (by omega)]; ring

theorem sign_cases (a b : Int) : (if b ≥ a then (1 : Int) else -1) = 1 ∨ (if b ≥ a then (1 : Int) else -1) = -1 := by
  split <;> simp

theorem between_of_sign {a b s t : Int} (hs : s * |b - a| = b - a) (h1 : s = 1 ∨ s = -1) (h0 : 0 ≤ t)
    (ht : t ≤ |b - a|) : min a b ≤ a + t * s ∧ a + t * s ≤ max a b := by
  rcases h1 with rfl | rfl
  · constructor
    · have := min_le_left a b; omega
    · have := le_max_right a b; omega
  · constructor
    · have := min_le_right a b; omega
    · have := le_max_left a b; omega

/-- The list of cells of a line with major length `d > 0` and minor length `e`, seen along one axis order. -/
theorem line_facts {d e : Int} (hd : 0 < d) (he : 0 ≤ e) {k : Nat} (hk : k ≤ d.toNat) :
    0 ≤ LineIter.minor d e k ∧ LineIter.minor d e k ≤ e := by
  constructor
  · rw [← LineIter.minor_zero (a := e) hd]; exact LineIter.minor_mono hd he (Nat.zero_le _)
  · conv_rhs => rw [← LineIter.minor_last (a := e) hd]
    exact LineIter.minor_mono hd he hk

theorem minor_step {d e : Int} (hd : 0 < d) (he : 0 ≤ e) (hed : e ≤ d) (k : Nat) :
    LineIter.minor d e (k + 1) = LineIter.minor d e k ∨ LineIter.minor d e (k + 1) = LineIter.minor d e k + 1 := by
  have := LineIter.minor_succ hd he hed k
  by_cases h : (d / 2 + k * e) % d + e ≥ d
  · exact Or.inr (this.1 h).1
  · exact Or.inl (this.2 h).1

/-- C20. Between any two indices the line iterator yields a discrete straight line and ends. -/
theorem C20_line (a b : Idx) :
    ∃ xs, Visits LineIter.ops (LineIter.ofIndices a b) xs ∧ DiscreteLine a b xs := by
  have hsx := sign_mul_abs a.x b.x
  have hsy := sign_mul_abs a.y b.y
  have csx := sign_cases a.x b.x
  have csy := sign_cases a.y b.y
  by_cases hmaj : |b.x - a.x| ≥ |b.y - a.y|
  · -- x is the longer axis
    set sx : Int := if b.x ≥ a.x then 1 else -1 with hsxd
    set sy : Int := if b.y ≥ a.y then 1 else -1 with hsyd
    have hit : LineIter.ofIndices a b =
        { index := a, iCell := 0, nCells := (|b.x - a.x| + 1).toNat, increment1 := ⟨0, sy⟩, increment2 := ⟨sx, 0⟩,
          denominator := |b.x - a.x|, numerator := |b.x - a.x| / 2, numeratorAdd := |b.y - a.y| } := by
      simp only [LineIter.ofIndices, hmaj, if_true, hsxd, hsyd]
    have hv := LineIter.visits_after (LineIter.ofIndices a b) (|b.x - a.x| + 1).toNat (by rw [hit]) (by rw [hit])
    refine ⟨_, hv, ?_⟩
    have hn : (|b.x - a.x| + 1).toNat = |b.x - a.x|.toNat + 1 := by have := abs_nonneg (b.x - a.x); omega
    rw [hn]
    rcases lt_or_ge 0 |b.x - a.x| with hd | hd
    · have hf : ∀ k, ((LineIter.ofIndices a b).after k).index =
          ⟨a.x + k * sx, a.y + LineIter.minor |b.x - a.x| |b.y - a.y| k * sy⟩ := by
        intro k
        rw [LineIter.after_eq (by rw [hit]; exact hd) (by rw [hit]) (by rw [hit]; exact abs_nonneg _)
          (by rw [hit]; exact hmaj), hit]
        ext <;> simp
      simp only [hf]
      set d := |b.x - a.x| with hdd
      set e := |b.y - a.y| with hed
      have he0 : 0 ≤ e := abs_nonneg _
      have hdt : (d.toNat : Int) = d := Int.toNat_of_nonneg hd.le
      have hmax : max d e = d := max_eq_left hmaj
      constructor
      · rw [List.length_map, List.length_range, hmax]; push_cast; rw [hdt]
      · rw [List.range_succ_eq_map, List.map_cons, List.head?_cons, LineIter.minor_zero hd]; simp
      · rw [List.range_succ, List.map_append, List.map_singleton, List.getLast?_concat, LineIter.minor_last hd, hdt]
        congr 1; ext
        · simp only; rw [mul_comm, hsx]; ring
        · simp only; rw [mul_comm, hsy]; ring
      · rw [List.isChain_map, List.isChain_range_succ]
        intro k hk
        have hst := minor_step hd he0 hmaj k
        refine ⟨?_, ?_, ?_⟩
        · intro heq
          have := congrArg Idx.x heq
          simp only [Nat.succ_eq_add_one] at this
          push_cast at this
          rcases csx with h | h <;> rw [h] at this <;> omega
        · simp only [Nat.succ_eq_add_one]; push_cast
          rcases csx with h | h <;> rw [h] <;> rw [abs_le] <;> constructor <;> omega
        · simp only [Nat.succ_eq_add_one]
          rcases csy with h | h <;> rw [h] <;> rcases hst with g | g <;> rw [g] <;> rw [abs_le] <;>
            constructor <;> omega
      · refine List.Nodup.map ?_ List.nodup_range
        intro j k heq
        have := congrArg Idx.x heq
        simp only at this
        rcases csx with h | h <;> rw [h] at this <;> omega
      · intro c hc
        obtain ⟨k, hk, rfl⟩ := List.mem_map.mp hc
        rw [List.mem_range] at hk
        have hm := line_facts hd he0 (k := k) (by omega)
        have b1 := between_of_sign hsx csx (t := k) (by omega) (by omega)
        have b2 := between_of_sign hsy csy hm.1 hm.2
        exact ⟨b1.1, b1.2, b2.1, b2.2⟩
      · intro c hc
        obtain ⟨k, hk, rfl⟩ := List.mem_map.mp hc
        simp only
        have hne := LineIter.minor_near (a := e) hd k
        rw [hmax]
        have : (a.x + k * sx - a.x) * (b.y - a.y) - (a.y + LineIter.minor d e k * sy - a.y) * (b.x - a.x) =
            (sx * sy) * -(LineIter.minor d e k * d - k * e) := by rw [← hsx, ← hsy]; ring
        rw [this, abs_mul, abs_neg]
        have h1 : |sx * sy| = 1 := by rcases csx with h | h <;> rcases csy with g | g <;> rw [h, g] <;> decide
        rw [h1, one_mul]; exact hne
    · have hd0 : |b.x - a.x| = 0 := le_antisymm hd (abs_nonneg _)
      have he0 : |b.y - a.y| = 0 := le_antisymm (le_trans hmaj hd) (abs_nonneg _)
      have hab : b = a := Idx.ext (by have := abs_eq_zero.mp hd0; omega) (by have := abs_eq_zero.mp he0; omega)
      subst hab
      have : (List.range (|b.x - b.x|.toNat + 1)).map (fun k => ((LineIter.ofIndices b b).after k).index) = [b] := by
        simp only [sub_self, abs_zero, Int.toNat_zero, Nat.zero_add, List.range_one, List.map_singleton,
          LineIter.after_zero]
        rw [hit]
      rw [this]
      constructor <;> simp
  · -- y is the longer axis
    set sx : Int := if b.x ≥ a.x then 1 else -1 with hsxd
    set sy : Int := if b.y ≥ a.y then 1 else -1 with hsyd
    have hit : LineIter.ofIndices a b =
        { index := a, iCell := 0, nCells := (|b.y - a.y| + 1).toNat, increment1 := ⟨sx, 0⟩, increment2 := ⟨0, sy⟩,
          denominator := |b.y - a.y|, numerator := |b.y - a.y| / 2, numeratorAdd := |b.x - a.x| } := by
      simp only [LineIter.ofIndices, hmaj, if_false, hsxd, hsyd]
    have hv := LineIter.visits_after (LineIter.ofIndices a b) (|b.y - a.y| + 1).toNat (by rw [hit]) (by rw [hit])
    refine ⟨_, hv, ?_⟩
    have hn : (|b.y - a.y| + 1).toNat = |b.y - a.y|.toNat + 1 := by have := abs_nonneg (b.y - a.y); omega
    rw [hn]
    have hlt : |b.x - a.x| ≤ |b.y - a.y| := by omega
    have hd : 0 < |b.y - a.y| := by have := abs_nonneg (b.x - a.x); omega
    have hf : ∀ k, ((LineIter.ofIndices a b).after k).index =
        ⟨a.x + LineIter.minor |b.y - a.y| |b.x - a.x| k * sx, a.y + k * sy⟩ := by
      intro k
      rw [LineIter.after_eq (by rw [hit]; exact hd) (by rw [hit]) (by rw [hit]; exact abs_nonneg _)
        (by rw [hit]; exact hlt), hit]
      ext <;> simp
    simp only [hf]
    set d := |b.y - a.y| with hdd
    set e := |b.x - a.x| with hed
    have he0 : 0 ≤ e := abs_nonneg _
    have hdt : (d.toNat : Int) = d := Int.toNat_of_nonneg hd.le
    have hmax : max e d = d := max_eq_right hlt
    constructor
    · rw [List.length_map, List.length_range, hmax]; push_cast; rw [hdt]
    · rw [List.range_succ_eq_map, List.map_cons, List.head?_cons, LineIter.minor_zero hd]; simp
    · rw [List.range_succ, List.map_append, List.map_singleton, List.getLast?_concat, LineIter.minor_last hd, hdt]
      congr 1; ext
      · simp only; rw [mul_comm, hsx]; ring
      · simp only; rw [mul_comm, hsy]; ring
    · rw [List.isChain_map, List.isChain_range_succ]
      intro k hk
      have hst := minor_step hd he0 hlt k
      refine ⟨?_, ?_, ?_⟩
      · intro heq
        have := congrArg Idx.y heq
        simp only [Nat.succ_eq_add_one] at this
        push_cast at this
        rcases csy with h | h <;> rw [h] at this <;> omega
      · simp only [Nat.succ_eq_add_one]
        rcases csx with h | h <;> rw [h] <;> rcases hst with g | g <;> rw [g] <;> rw [abs_le] <;>
          constructor <;> omega
      · simp only [Nat.succ_eq_add_one]; push_cast
        rcases csy with h | h <;> rw [h] <;> rw [abs_le] <;> constructor <;> omega
    · refine List.Nodup.map ?_ List.nodup_range
      intro j k heq
      have := congrArg Idx.y heq
      simp only at this
      rcases csy with h | h <;> rw [h] at this <;> omega
    · intro c hc
      obtain ⟨k, hk, rfl⟩ := List.mem_map.mp hc
      rw [List.mem_range] at hk
      have hm := line_facts hd he0 (k := k) (by omega)
      have b2 := between_of_sign hsy csy (t := k) (by omega) (by omega)
      have b1 := between_of_sign hsx csx hm.1 hm.2
      exact ⟨b1.1, b1.2, b2.1, b2.2⟩
    · intro c hc
      obtain ⟨k, hk, rfl⟩ := List.mem_map.mp hc
      simp only
      have hne := LineIter.minor_near (a := e) hd k
      rw [hmax]
      have : (a.x + LineIter.minor d e k * sx - a.x) * (b.y - a.y) - (a.y + k * sy - a.y) * (b.x - a.x) =
          (sx * sy) * (LineIter.minor d e k * d - k * e) := by rw [← hsx, ← hsy]; ring
      rw [this, abs_mul]
      have h1 : |sx * sy| = 1 := by rcases csx with h | h <;> rcases csy with g | g <;> rw [h, g] <;> decide
      rw [h1, one_mul]; exact hne

/-- C20. A line between two cells of the map stays on the map. -/
theorem C20_line_stays_in_range {a b size : Idx} (ha : a.In size) (hb : b.In size) {xs : List Idx}
    (h : DiscreteLine a b xs) : ∀ c ∈ xs, c.In size := by
  intro c hc
  obtain ⟨a1, a2, a3, a4⟩ := ha
  obtain ⟨b1, b2, b3, b4⟩ := hb
  obtain ⟨h1, h2, h3, h4⟩ := h.box c hc
  exact ⟨by omega, by omega, by omega, by omega⟩

example : ∃ xs, Visits LineIter.ops (LineIter.ofIndices ⟨1, 7⟩ ⟨6, 4⟩) xs ∧ DiscreteLine ⟨1, 7⟩ ⟨6, 4⟩ xs ∧
    xs.length = 6 := by
  obtain ⟨xs, h1, h2⟩ := C20_line ⟨1, 7⟩ ⟨6, 4⟩
  refine ⟨xs, h1, h2, ?_⟩
  have := h2.length
  have e : max |(⟨6, 4⟩ : Idx).x - (⟨1, 7⟩ : Idx).x| |(⟨6, 4⟩ : Idx).y - (⟨1, 7⟩ : Idx).y| = 5 := by decide
  rw [e] at this; omega

/-! ## C21 -/

/-- C21. The search for the first cell of the line on the map terminates, for every pair of positions, as long as
a cell is larger than `DBL_EPSILON`. -/
theorem C21_search_terminates {norm : Vec K → K} (m : CostMap K) (a b : Vec K)
    (hn : LineIter.NormOn norm ⟨b.x - a.x, b.y - a.y⟩) (hh : dblEpsilon < m.resolution) :
    ∃ r, LineIter.ofPositions norm m a b = .ok r := by
  have hh' : 0 < m.resolution - dblEpsilon := sub_pos.mpr hh
  have hn' : LineIter.NormOn norm ⟨a.x - b.x, a.y - b.y⟩ := by
    have := hn.neg.1; simpa using this
  have h1 : ∃ r, LineIter.indexLimited norm m a b = .ok r := by
    rcases LineIter.indexLimited_spec (m := m) hn hh' with ⟨n, -, h, -⟩ | ⟨n, h, -⟩ <;> exact ⟨_, h⟩
  have h2 : ∃ r, LineIter.indexLimited norm m b a = .ok r := by
    rcases LineIter.indexLimited_spec (m := m) hn' hh' with ⟨n, -, h, -⟩ | ⟨n, h, -⟩ <;> exact ⟨_, h⟩
  obtain ⟨r1, h1⟩ := h1
  obtain ⟨r2, h2⟩ := h2
  unfold LineIter.ofPositions
  rw [h1, Res.bind_ok]
  cases r1 with
  | none => exact ⟨_, rfl⟩
  | some i =>
    simp only [h2, Res.bind_ok]
    cases r2 with
    | none => exact ⟨_, rfl⟩
    | some j => exact ⟨_, rfl⟩

theorem indexLimited_inside {norm : Vec K → K} {m : CostMap K} {a b : Vec K} (ha : m.isInside a = true) :
    LineIter.indexLimited norm m a b = .ok (some (m.getIndex a).1) := by
  have h2 : (m.getIndex a).2 = true := by rw [getIndex_snd]; exact ha
  have hf : LineIter.searchFuel norm m a b = (LineIter.searchFuel norm m a b - 1) + 1 := by
    unfold LineIter.searchFuel; omega
  unfold LineIter.indexLimited
  rw [hf]
  simp only [LineIter.searchFrom, h2, if_true]

/-- C21. When both positions are inside, the line runs between their cells. -/
theorem C21_both_inside {norm : Vec K → K} {m : CostMap K} {a b : Vec K} (ha : m.isInside a = true)
    (hb : m.isInside b = true) :
    ∃ it xs, LineIter.ofPositions norm m a b = .ok (some it) ∧ Visits LineIter.ops it xs ∧
      DiscreteLine (m.getIndex a).1 (m.getIndex b).1 xs := by
  obtain ⟨xs, h1, h2⟩ := C20_line (m.getIndex a).1 (m.getIndex b).1
  refine ⟨_, xs, ?_, h1, h2⟩
  unfold LineIter.ofPositions
  rw [indexLimited_inside ha, Res.bind_ok]
  simp only [indexLimited_inside hb, Res.bind_ok]

/-- A point of the segment from `a` to `b`. -/
def OnSegment (a b p : Vec K) : Prop :=
  ∃ t, 0 ≤ t ∧ t ≤ 1 ∧ p = ⟨a.x + t * (b.x - a.x), a.y + t * (b.y - a.y)⟩

theorem along_onSegment {a b : Vec K} {L s : K} (hL : 0 ≤ L) (h0 : 0 ≤ s) (h : s ≤ L) :
    OnSegment a b (LineIter.along a b L s) :=
  ⟨s / L, div_nonneg h0 hL, div_le_one_of_le₀ h hL, rfl⟩

theorem OnSegment.symm {a b p : Vec K} (h : OnSegment a b p) : OnSegment b a p := by
  obtain ⟨t, h0, h1, rfl⟩ := h
  refine ⟨1 - t, by linarith, by linarith, ?_⟩
  ext <;> simp only <;> ring

theorem indexLimited_onSegment {norm : Vec K → K} {m : CostMap K} {a b : Vec K}
    (hn : LineIter.NormOn norm ⟨b.x - a.x, b.y - a.y⟩) (hh : dblEpsilon < m.resolution) {i : Idx}
    (h : LineIter.indexLimited norm m a b = .ok (some i)) :
    ∃ p, OnSegment a b p ∧ m.isInside p = true ∧ (m.getIndex p).1 = i := by
  have hh' : 0 < m.resolution - dblEpsilon := sub_pos.mpr hh
  rcases LineIter.indexLimited_spec (m := m) hn hh' with ⟨n, h1, h2, -, h4⟩ | ⟨n, h1, -⟩
  · rw [h] at h2
    refine ⟨_, along_onSegment hn.nonneg (mul_nonneg (Nat.cast_nonneg n) hh'.le) ?_, ?_, ?_⟩
    · rcases Nat.eq_zero_or_pos n with h0 | h0
      · rw [h0]; simp only [Nat.cast_zero, zero_mul]; exact hn.nonneg
      · have := (h4 h0).2
        linarith
    · rw [← getIndex_snd]; exact h1
    · cases h2; rfl
  · rw [h] at h1; cases h1

/-- C21. In every case the line runs between two cells that hold points of the segment inside the map. -/
theorem C21_cells_on_segment {norm : Vec K → K} {m : CostMap K} {a b : Vec K}
    (hn : LineIter.NormOn norm ⟨b.x - a.x, b.y - a.y⟩) (hh : dblEpsilon < m.resolution) {it : LineIter}
    (h : LineIter.ofPositions norm m a b = .ok (some it)) :
    ∃ p q xs, OnSegment a b p ∧ OnSegment a b q ∧ m.isInside p = true ∧ m.isInside q = true ∧
      Visits LineIter.ops it xs ∧ DiscreteLine (m.getIndex p).1 (m.getIndex q).1 xs := by
  have hn' : LineIter.NormOn norm ⟨a.x - b.x, a.y - b.y⟩ := by
    have := hn.neg.1; simpa using this
  unfold LineIter.ofPositions at h
  cases h1 : LineIter.indexLimited norm m a b with
  | ok r =>
    rw [h1, Res.bind_ok] at h
    cases r with
    | none => cases h
    | some i =>
      simp only at h
      cases h2 : LineIter.indexLimited norm m b a with
      | ok r2 =>
        rw [h2, Res.bind_ok] at h
        cases r2 with
        | none => cases h
        | some j =>
          cases h
          obtain ⟨p, p1, p2, p3⟩ := indexLimited_onSegment hn hh h1
          obtain ⟨q, q1, q2, q3⟩ := indexLimited_onSegment hn' hh h2
          obtain ⟨xs, x1, x2⟩ := C20_line i j
          exact ⟨p, q, xs, p1, q1.symm, p2, q2, x1, by rw [p3, q3]; exact x2⟩
      | thrown e => rw [h2] at h; cases h
      | assertFail => rw [h2] at h; cases h
      | ub => rw [h2] at h; cases h
      | outOfFuel => rw [h2] at h; cases h
  | thrown e => rw [h1] at h; cases h
  | assertFail => rw [h1] at h; cases h
  | ub => rw [h1] at h; cases h
  | outOfFuel => rw [h1] at h; cases h

/-- C21, the part that is false (D8): when the segment misses the map the constructor initialises
nothing, so the first `isPastEnd()` is undefined behaviour instead of saying that the iteration is empty. -/
theorem C21_missing_segment_is_ub {norm : Vec K → K} {m : CostMap K} {a b : Vec K}
    (hn : LineIter.NormOn norm ⟨b.x - a.x, b.y - a.y⟩) (hh : dblEpsilon < m.resolution)
    (hmiss : ∀ p, OnSegment a b p → m.isInside p = false) :
    (LineIter.ofPositions norm m a b).bind LineIter.firstPastEnd = .ub := by
  have hh' : 0 < m.resolution - dblEpsilon := sub_pos.mpr hh
  have h1 : LineIter.indexLimited norm m a b = .ok none := by
    rcases LineIter.indexLimited_spec (m := m) hn hh' with ⟨n, -, h2, -⟩ | ⟨n, h1, -⟩
    · obtain ⟨p, p1, p2, -⟩ := indexLimited_onSegment hn hh h2
      rw [hmiss p p1] at p2; cases p2
    · exact h1
  unfold LineIter.ofPositions
  rw [h1]; rfl

/-- C21. The search does find the map when at least two steps before the end of the segment a stretch of one
step length lies inside the map. -/
theorem C21_search_succeeds {norm : Vec K → K} {m : CostMap K} {a b : Vec K}
    (hn : LineIter.NormOn norm ⟨b.x - a.x, b.y - a.y⟩) (hh : dblEpsilon < m.resolution) {s0 : K} (h0 : 0 ≤ s0)
    (hend : s0 + 2 * (m.resolution - dblEpsilon) ≤ norm ⟨b.x - a.x, b.y - a.y⟩)
    (hin : ∀ s, s0 ≤ s → s < s0 + (m.resolution - dblEpsilon) →
      m.isInside (LineIter.along a b (norm ⟨b.x - a.x, b.y - a.y⟩) s) = true) :
    ∃ i, LineIter.indexLimited norm m a b = .ok (some i) := by
  have hh' : 0 < m.resolution - dblEpsilon := sub_pos.mpr hh
  rcases LineIter.indexLimited_spec (m := m) hn hh' with ⟨n, -, h2, -⟩ | ⟨n, -, h2, h3⟩
  · exact ⟨_, h2⟩
  · exfalso
    set h := m.resolution - dblEpsilon with hd
    set L := norm ⟨b.x - a.x, b.y - a.y⟩ with hL
    rcases h3 with h3 | h3
    · linarith
    · have hc : 0 ≤ ⌈s0 / h⌉ := Int.ceil_nonneg (div_nonneg h0 hh'.le)
      obtain ⟨j, hj⟩ := Int.eq_ofNat_of_zero_le hc
      have c1 := Int.le_ceil (s0 / h)
      have c2 := Int.ceil_lt_add_one (s0 / h)
      rw [hj] at c1 c2
      simp only [Int.cast_natCast] at c1 c2
      have e1 : s0 ≤ j * h := by
        rw [div_le_iff₀ hh'] at c1; exact c1
      have e2 : (j : K) * h < s0 + h := by
        have : (j : K) * h < (s0 / h + 1) * h := mul_lt_mul_of_pos_right c2 hh'
        rwa [add_mul, one_mul, div_mul_cancel₀ _ hh'.ne'] at this
      have hjn : j ≤ n := by
        by_contra hlt
        have : ((n + 1 : Nat) : K) ≤ j := by exact_mod_cast (by omega : n + 1 ≤ j)
        have := mul_le_mul_of_nonneg_right this hh'.le
        linarith
      have := h2 j hjn
      rw [getIndex_snd, hin _ e1 e2] at this
      cases this

/-- The length of an axis-parallel vector. -/
def axisNorm (v : Vec ℚ) : ℚ := |v.x| + |v.y|

theorem axisNorm_on (d : Vec ℚ) : LineIter.NormOn axisNorm d where
  scale t := by simp only [axisNorm, abs_mul]; ring
  nonneg := by simp only [axisNorm]; positivity
  zero h := by
    simp only [axisNorm] at h
    have h1 := abs_nonneg d.x
    have h2 := abs_nonneg d.y
    ext
    · exact abs_eq_zero.mp (by linarith)
    · exact abs_eq_zero.mp (by linarith)

/-- D20. A line that starts just outside the map and ends well inside it is rejected when it is shorter than
two steps, and the iterator is left uninitialised. -/
theorem C21_false_for_short_lines_from_outside :
    Demo.base.isInside ⟨2, -1⟩ = true ∧ Demo.base.isInside ⟨5 / 2, -1⟩ = false ∧
      (LineIter.ofPositions axisNorm Demo.base ⟨5 / 2, -1⟩ ⟨2, -1⟩).bind LineIter.firstPastEnd = .ub := by
  decide +kernel

example : ∃ it xs, LineIter.ofPositions axisNorm Demo.rotated ⟨0, -1⟩ ⟨2, -1⟩ = .ok (some it) ∧
    Visits LineIter.ops it xs ∧
    DiscreteLine (Demo.rotated.getIndex ⟨0, -1⟩).1 (Demo.rotated.getIndex ⟨2, -1⟩).1 xs :=
  C21_both_inside (by decide +kernel) (by decide +kernel)

/-- A line that enters and leaves the map. -/
example : LineIter.ofPositions axisNorm Demo.base ⟨9, -1⟩ ⟨-9, -1⟩ =
    .ok (some (LineIter.ofIndices ⟨0, 2⟩ ⟨4, 2⟩)) := by decide +kernel

example : (LineIter.ofPositions axisNorm Demo.base ⟨9, 5⟩ ⟨-9, 5⟩).bind LineIter.firstPastEnd = .ub := by
  refine C21_missing_segment_is_ub (axisNorm_on _) (by decide +kernel) ?_
  rintro p ⟨t, -, -, rfl⟩
  simp only [isInside, withinMap]
  have e1 : Demo.base.position.y = -1 := by decide +kernel
  have e2 : Demo.base.length.y = 2 := by decide +kernel
  simp only [e1, e2]
  norm_num

/-! ## C62 -/

/-- C62 (partial: maps whose buffer was never rotated; false otherwise, see
`C62_false_on_moved_map`). Consecutive cells of a line inside the map are neighbours in the world: their
centres differ by at most one cell on each axis. -/
theorem C62_line_is_connected_partial {m : CostMap K} (h : m.Geo) (h0 : m.startIndex = 0) {a b : Vec K}
    {norm : Vec K → K} (ha : m.isInside a = true) (hb : m.isInside b = true) :
    ∃ it xs, LineIter.ofPositions norm m a b = .ok (some it) ∧ Visits LineIter.ops it xs ∧
      xs.IsChain (fun i j => ∀ p q, m.getPosition i = some p → m.getPosition j = some q →
        |p.x - q.x| ≤ m.resolution ∧ |p.y - q.y| ≤ m.resolution) := by
  obtain ⟨it, xs, h1, h2, h3⟩ := C21_both_inside (norm := norm) ha hb
  refine ⟨it, xs, h1, h2, h3.chain.imp ?_⟩
  rintro i j ⟨-, hx, hy⟩ p q hp hq
  have hi : i.In m.size := by
    by_contra hn; rw [getPosition_none hn] at hp; cases hp
  have hj : j.In m.size := by
    by_contra hn; rw [getPosition_none hn] at hq; cases hq
  rw [getPosition_eq hi] at hp
  rw [getPosition_eq hj] at hq
  cases hp; cases hq
  have hr := h.res_pos
  have ux : |((j.x - i.x : Int) : K)| ≤ 1 := by exact_mod_cast hx
  have uy : |((j.y - i.y : Int) : K)| ≤ 1 := by exact_mod_cast hy
  simp only [unwrapIdx, h0, if_true]
  have e1 : (m.center i).x - (m.center j).x = m.resolution * ((j.x - i.x : Int) : K) := by
    simp only [center]; push_cast; ring
  have e2 : (m.center i).y - (m.center j).y = m.resolution * ((j.y - i.y : Int) : K) := by
    simp only [center]; push_cast; ring
  rw [e1, e2, abs_mul, abs_mul, abs_of_pos hr]
  exact ⟨by nlinarith, by nlinarith⟩

/-- C62 is false on a moved map: between two neighbouring cells the line runs once around the buffer, and
jumps four cells on the way. -/
theorem C62_false_on_moved_map :
    ∃ it, LineIter.ofPositions axisNorm Demo.rotated ⟨3 / 2, -1 / 4⟩ ⟨1, -1 / 4⟩ = .ok (some it) ∧
      Visits LineIter.ops it [⟨4, 2⟩, ⟨3, 2⟩, ⟨2, 2⟩, ⟨1, 2⟩, ⟨0, 2⟩] ∧
      Demo.rotated.getPosition ⟨3, 2⟩ = some ⟨2, -1 / 4⟩ ∧
      Demo.rotated.getPosition ⟨2, 2⟩ = some ⟨0, -1 / 4⟩ := by
  refine ⟨LineIter.ofIndices ⟨4, 2⟩ ⟨0, 2⟩, by decide +kernel, ?_, by decide +kernel, by decide +kernel⟩
  exact .step (by decide) rfl rfl (.step (by decide) rfl rfl (.step (by decide) rfl rfl (.step (by decide) rfl rfl
    (.step (by decide) rfl rfl (.done (by decide))))))

example : ∃ it xs, LineIter.ofPositions axisNorm Demo.base ⟨0, -1⟩ ⟨2, -1 / 4⟩ = .ok (some it) ∧
    Visits LineIter.ops it xs ∧
    xs.IsChain (fun i j => ∀ p q, Demo.base.getPosition i = some p → Demo.base.getPosition j = some q →
      |p.x - q.x| ≤ Demo.base.resolution ∧ |p.y - q.y| ≤ Demo.base.resolution) :=
  C62_line_is_connected_partial Demo.base_geo Demo.base_start (by decide +kernel) (by decide +kernel)

end CostMapModel

import Verif.Lemmas.Polygon
import Verif.Lemmas.RoundedSubmap
import Verif.Lemmas.RoundedMerge
import Verif.Spec.RoundedShapes
import Verif.Model.RoundedShapes

/-!
# Circle, ellipse and polygon iterators in rounded arithmetic
-/

set_option linter.unusedSectionVars false

namespace CostMapModel
open CostMap

namespace ShapeIter
variable {K : Type} [Field K] [LinearOrder K] [IsStrictOrderedRing K] [FloorRing K]

theorem skipRd_spec (rd : K → K) (it : ShapeIter K) (P : Idx → Bool) {s : SubmapIter} {xs : List Idx}
    (hv : Visits SubmapIter.ops s xs) :
    (∀ s : SubmapIter, s.index ∈ xs → it.isInsideRd rd s = .ok (P s.index)) → ∀ n, xs.length < n →
    ∃ s', it.skipRd rd n s = .ok s' ∧ s'.submapSize = s.submapSize ∧
      Visits SubmapIter.ops s' (xs.dropWhile fun x => !P x) := by
  induction hv with
  | @done s hp =>
    intro _ n hn
    obtain ⟨n, rfl⟩ : ∃ k, n = k + 1 := ⟨n - 1, by simp at hn; omega⟩
    have hp' : s.pastEnd = true := hp
    exact ⟨s, by simp [skipRd, hp'], rfl, .done hp⟩
  | @step s s1 x xs hp hd hn hv ih =>
    intro hP n hlen
    obtain ⟨n, rfl⟩ : ∃ k, n = k + 1 := ⟨n - 1, by simp at hlen; omega⟩
    have hp' : s.pastEnd = false := hp
    simp only [SubmapIter.ops, Res.ok.injEq] at hd hn
    subst hn
    have hin := hP s (by simp [hd])
    rw [hd] at hin
    cases hb : P x with
    | true =>
      refine ⟨s, by simp [skipRd, hp', hin, hb], rfl, ?_⟩
      rw [List.dropWhile_cons_of_neg (by simp [hb])]
      exact .step hp (by simp [SubmapIter.ops, hd]) rfl hv
    | false =>
      obtain ⟨s', h1, h2, h3⟩ := ih (fun s hs => hP s (by simp [hs])) n (by simp at hlen; omega)
      refine ⟨s', by simp [skipRd, hp', hin, hb, h1], by rw [h2, SubmapIter.next_submapSize], ?_⟩
      rw [List.dropWhile_cons_of_pos (by simp [hb])]
      exact h3

theorem nextRd_spec (rd : K → K) (it : ShapeIter K) (P : Idx → Bool) {x : Idx} {xs : List Idx}
    (hv : Visits SubmapIter.ops it.internal (x :: xs))
    (hP : ∀ s : SubmapIter, s.index ∈ xs → it.isInsideRd rd s = .ok (P s.index))
    (hf : xs.length < it.fuel) :
    ∃ s', it.nextRd rd = .ok { it with internal := s' } ∧ s'.submapSize = it.internal.submapSize ∧
      Visits SubmapIter.ops s' (xs.dropWhile fun x => !P x) := by
  cases hv with
  | step hp hd hn hv =>
    simp only [SubmapIter.ops, Res.ok.injEq] at hd hn
    subst hn
    by_cases hpe : it.internal.next.pastEnd = true
    · have : xs = [] := hv.nil_iff.mp hpe
      subst this
      exact ⟨_, by simp [nextRd, hpe], SubmapIter.next_submapSize _, hv⟩
    · obtain ⟨s', h1, h2, h3⟩ := skipRd_spec rd it P hv hP it.fuel hf
      exact ⟨s', by simp [nextRd, hpe, h1], by rw [h2, SubmapIter.next_submapSize], h3⟩

theorem filterRd_visits (rd : K → K) (P : Idx → Bool) : ∀ (n : Nat) (it : ShapeIter K) (xs : List Idx), xs.length ≤ n →
    Visits SubmapIter.ops it.internal xs →
    (∀ s : SubmapIter, s.index ∈ xs → it.isInsideRd rd s = .ok (P s.index)) →
    (∀ x ys, xs = x :: ys → P x = true) → xs.length ≤ it.fuel →
    Visits (ShapeIter.opsRd rd) it (xs.filter P) := by
  intro n
  induction n with
  | zero =>
    intro it xs hlen hv _ _ _
    have : xs = [] := by simpa using hlen
    subst this
    exact .done (hv.nil_iff.mpr rfl)
  | succ n ih =>
    intro it xs hlen hv hP hhd hf
    cases xs with
    | nil => exact .done (hv.nil_iff.mpr rfl)
    | cons x xs =>
      have hx := hhd x xs rfl
      obtain ⟨s', h1, h2, h3⟩ := nextRd_spec rd it P hv (fun s hs => hP s (by simp [hs]))
        (by simp at hf; omega)
      have hsub : ∀ y ∈ xs.dropWhile (fun x => !P x), y ∈ xs := fun y hy =>
        (List.dropWhile_suffix _).subset hy
      have hle : (xs.dropWhile fun x => !P x).length ≤ xs.length := (List.dropWhile_suffix _).length_le
      have hd : it.internal.index = x := by
        cases hv with
        | step _ hd _ _ => simpa [SubmapIter.ops] using hd
      have hp : it.internal.pastEnd = false := by
        cases hv with
        | step hp _ _ _ => exact hp
      rw [List.filter_cons_of_pos hx]
      refine .step hp (by simp [opsRd, hd]) h1 ?_
      rw [← dropWhile_filter]
      refine ih { it with internal := s' } _ ?_ h3 ?_ (dropWhile_head P xs) ?_
      · simp at hlen; omega
      · intro s hs
        exact hP s (by simp [hsub _ hs])
      · have : fuel { it with internal := s' } = it.fuel := by simp [fuel, h2]
        rw [this]
        simp at hf; omega

/-- The iterator the constructors of circle, ellipse and polygon return visits the cells of the bounding box
that are inside the shape, in the order of the bounding box. -/
theorem newWithRd_visits (rd : K → K) (m : CostMap K) (shape : Vec K → Bool) (tl sz : Idx) (P : Idx → Bool) {xs : List Idx}
    (hv : Visits SubmapIter.ops (SubmapIter.new m tl sz) xs) (hlen : xs.length ≤ sz.x.toNat * sz.y.toNat + 2)
    (hP : ∀ i ∈ xs, ∃ p, m.getPositionRd rd i = some p ∧ P i = shape p) :
    ∃ it, newWithRd rd m shape tl sz = .ok it ∧ Visits (ShapeIter.opsRd rd) it (xs.filter P) := by
  set it0 : ShapeIter K :=
    ⟨m.length, m.position, m.resolution, m.size, m.startIndex, shape, SubmapIter.new m tl sz⟩ with hit0
  have hins : ∀ it : ShapeIter K, it.length = m.length → it.position = m.position →
      it.resolution = m.resolution → it.size = m.size → it.startIndex = m.startIndex → it.shape = shape →
      ∀ s : SubmapIter, s.index ∈ xs → it.isInsideRd rd s = .ok (P s.index) := by
    intro it h1 h2 h3 h4 h5 h6 s hs
    obtain ⟨p, hp, hpp⟩ := hP s.index hs
    simp only [isInsideRd, h1, h2, h3, h4, h5, h6]
    have : positionFromIndexRd rd s.index m.length m.position m.resolution m.size m.startIndex = some p := hp
    rw [this, hpp]
  have hins0 := hins it0 rfl rfl rfl rfl rfl rfl
  have hfuel : it0.fuel = sz.x.toNat * sz.y.toNat + 2 := rfl
  cases xs with
  | nil =>
    have := hv.nil_iff.mpr rfl
    simp [SubmapIter.ops, SubmapIter.new] at this
  | cons x xs =>
    have hx : it0.internal.index = x := by
      cases hv with
      | step _ hd _ _ => simpa [SubmapIter.ops] using hd
    have hb := hins0 it0.internal (by simp [hx])
    rw [hx] at hb
    cases hPx : P x with
    | true =>
      refine ⟨it0, ?_, ?_⟩
      · show (it0.isInsideRd rd it0.internal).bind _ = _
        rw [hb, hPx]; rfl
      · refine filterRd_visits rd P _ it0 (x :: xs) (le_refl _) hv hins0 ?_ (by rw [hfuel]; exact hlen)
        rintro y ys ⟨⟩; exact hPx
    | false =>
      obtain ⟨s', h1, h2, h3⟩ := nextRd_spec rd it0 P hv (fun s hs => hins0 s (by simp [hs]))
        (by rw [hfuel]; simp at hlen; omega)
      refine ⟨{ it0 with internal := s' }, ?_, ?_⟩
      · show (it0.isInsideRd rd it0.internal).bind _ = _
        rw [hb, hPx]
        exact h1
      · rw [List.filter_cons_of_neg (by simp [hPx]), ← dropWhile_filter]
        refine filterRd_visits rd P _ _ _ (le_refl _) h3 ?_ (dropWhile_head P xs) ?_
        · intro s hs
          exact hins _ rfl rfl rfl rfl rfl rfl s (by
            have := (List.dropWhile_suffix (fun x => !P x)).subset hs
            simp [this])
        · have e : fuel { it0 with internal := s' } = it0.fuel := by simp [fuel, h2]
          have := (List.dropWhile_suffix (l := xs) (fun x => !P x)).length_le
          rw [e, hfuel]
          simp at hlen; omega

end ShapeIter

variable {K : Type} [Field K] [LinearOrder K] [IsStrictOrderedRing K] [FloorRing K]

theorem getPositionRd_eq {rd : K → K} {m : CostMap K} {i : Idx} (hi : i.In m.size) :
    m.getPositionRd rd i =
      some ⟨centreRd rd (unwrapIdx i m.size m.startIndex).x m.length.x m.position.x m.resolution,
        centreRd rd (unwrapIdx i m.size m.startIndex).y m.length.y m.position.y m.resolution⟩ := by
  simp only [getPositionRd, positionFromIndexRd, inRange_iff.mpr hi, if_true]

theorem getPositionRd_in {rd : K → K} {m : CostMap K} {i : Idx} {p : Vec K} (h : m.getPositionRd rd i = some p) :
    i.In m.size := by
  unfold getPositionRd positionFromIndexRd at h
  split at h
  · exact inRange_iff.mp (by assumption)
  · cases h

/-- Iterating the block of cells from `T` to `B` and keeping those inside a shape enumerates exactly the cells inside the
shape, if they all lie in the block. -/
theorem block_enumeratesRd {rd : K → K} {m : CostMap K} (hstart : m.startIndex.In m.size) (shape : Vec K → Bool) {T B : Idx}
    (hT : T.In m.size) (hB : B.In m.size)
    (hshape : ∀ i p, m.getPositionRd rd i = some p → shape p = true →
      (T.x ≤ (unwrapIdx i m.size m.startIndex).x ∧ (unwrapIdx i m.size m.startIndex).x ≤ B.x) ∧
      (T.y ≤ (unwrapIdx i m.size m.startIndex).y ∧ (unwrapIdx i m.size m.startIndex).y ≤ B.y)) :
    ∃ it xs, ShapeIter.newWithRd rd m shape (bufferIdx T m.size m.startIndex) (B - T + Idx.ones) = .ok it ∧
      Visits (ShapeIter.opsRd rd) it xs ∧
      Enumerates xs (fun i => ∃ p, m.getPositionRd rd i = some p ∧ shape p = true) := by
  classical
  set sz := B - T + Idx.ones with hsz
  have hsx : sz.x = B.x - T.x + 1 := rfl
  have hsy : sz.y = B.y - T.y + 1 := rfl
  set P : Idx → Bool := fun i => match m.getPositionRd rd i with
    | some p => shape p
    | none => false with hPdef
  by_cases hle : T.x ≤ B.x ∧ T.y ≤ B.y
  · have hv := submapIter_visits_fst (submapIter_visits hstart (bufferIdx_in hT hstart)
      (sz := sz) (by omega) (by omega))
    rw [unwrap_buffer hT hstart, List.map_map] at hv
    set f : Idx → Idx := fun u => bufferIdx (T + u) m.size m.startIndex with hf
    have hfe : (Prod.fst ∘ fun u => (bufferIdx (T + u) m.size m.startIndex, u)) = f := rfl
    rw [hfe] at hv
    have hTu : ∀ u ∈ rowMajor sz, (T + u).In m.size := by
      intro u hu
      rw [mem_rowMajor] at hu
      obtain ⟨u1, u2, u3, u4⟩ := hu
      obtain ⟨t1, t2, t3, t4⟩ := hT
      obtain ⟨b1, b2, b3, b4⟩ := hB
      refine ⟨?_, ?_, ?_, ?_⟩ <;> simp only [Idx.add_x, Idx.add_y] <;> omega
    obtain ⟨it, h1, h2⟩ := ShapeIter.newWithRd_visits rd m shape (bufferIdx T m.size m.startIndex) sz P hv
      (by rw [List.length_map, rowMajor_length]; omega) (by
        intro i hi
        obtain ⟨u, hu, rfl⟩ := List.mem_map.mp hi
        refine ⟨_, getPositionRd_eq (bufferIdx_in (hTu u hu) hstart), ?_⟩
        simp only [hPdef]
        rw [getPositionRd_eq (bufferIdx_in (hTu u hu) hstart)])
    refine ⟨it, _, h1, h2, ?_, ?_⟩
    · apply List.Nodup.filter
      refine List.Nodup.map_on ?_ (rowMajor_nodup sz)
      intro u hu v hv' huv
      have := congrArg (fun i => unwrapIdx i m.size m.startIndex) huv
      simp only [hf] at this
      rw [unwrap_buffer (hTu u hu) hstart, unwrap_buffer (hTu v hv') hstart] at this
      have e1 := congrArg Idx.x this
      have e2 := congrArg Idx.y this
      simp only [Idx.add_x, Idx.add_y] at e1 e2
      exact Idx.ext (by omega) (by omega)
    · intro i
      rw [List.mem_filter]
      constructor
      · rintro ⟨hi, hPi⟩
        simp only [hPdef] at hPi
        split at hPi
        · exact ⟨_, by assumption, hPi⟩
        · cases hPi
      · rintro ⟨p, hp, hsp⟩
        have hi := getPositionRd_in hp
        refine ⟨?_, by simp only [hPdef]; rw [hp]; exact hsp⟩
        obtain ⟨⟨q1, q2⟩, q3, q4⟩ := hshape i p hp hsp
        rw [List.mem_map]
        refine ⟨unwrapIdx i m.size m.startIndex - T, ?_, ?_⟩
        · rw [mem_rowMajor]
          refine ⟨?_, ?_, ?_, ?_⟩ <;> simp only [Idx.sub_x, Idx.sub_y] <;> omega
        · simp only [hf]
          have : T + (unwrapIdx i m.size m.startIndex - T) = unwrapIdx i m.size m.startIndex := by
            ext <;> simp
          rw [this, buffer_unwrap hi hstart]
  · have hno : ∀ i p, m.getPositionRd rd i = some p → shape p = false := by
      intro i p hp
      by_contra hn
      obtain ⟨⟨q1, q2⟩, q3, q4⟩ := hshape i p hp (by simpa using hn)
      exact hle ⟨q1.trans q2, q3.trans q4⟩
    have hin := bufferIdx_in hT hstart
    have hn : ¬ (0 < sz.x ∧ 0 < sz.y) := by
      rintro ⟨a, b⟩
      exact hle ⟨by omega, by omega⟩
    obtain ⟨it, h1, h2⟩ := ShapeIter.newWithRd_visits rd m shape (bufferIdx T m.size m.startIndex) sz (fun _ => false)
      (submapIter_visits_empty m _ _ hn) (by simp) (by
        intro i hi
        rw [List.mem_singleton] at hi
        subst hi
        exact ⟨_, getPositionRd_eq hin, (hno _ _ (getPositionRd_eq hin)).symm⟩)
    refine ⟨it, _, h1, h2, ?_, ?_⟩
    · simp
    · intro i
      simp only [List.filter_false, List.not_mem_nil, false_iff]
      rintro ⟨p, hp, hs⟩
      rw [hno i p hp] at hs
      cases hs

namespace Axis
variable {rd : K → K} {n : Int} {pos len r T : K}

/-- Row of a corner cut to the map, as computed. -/
def cutCell (rd : K → K) (p len pos r : K) : Int := cellRd rd (boundPosition1Rd rd p len pos) len pos r

/-- A cell whose computed centre is not above the upper corner is not above the corner's cell. -/
theorem cut_le (h : Axis rd n pos len r T) (hrd : DoublePrecision rd) (ht : T ≤ 2 ^ 43 * r) {p : K}
    (hp : CornerOk n r pos p) {u : Int} (hu : 0 ≤ u) (hu' : u < n) (hc : centreRd rd u len pos r ≤ p + r / 16) :
    cutCell rd p len pos r ≤ u := by
  obtain ⟨-, -, -, -, t1, -⟩ := h.cut hrd hp
  have e := abs_le.mp (h.centre_err hrd hu hu')
  have hU := tame_unit h ht
  have g := h.r_pos
  have hn := h.unit_nonneg
  have hu0 : (0 : K) ≤ r * u := mul_nonneg g.le (by exact_mod_cast hu)
  have hm : max 0 (min ((n : K) * r) (pos + n * r / 2 - p)) ≤ r / 2 + r * u + 13 * (T / 2 ^ 53) + r / 16 := by
    refine max_le (by linarith) (min_le_of_right_le (by linarith [e.1]))
  unfold cutCell
  generalize cellRd rd (boundPosition1Rd rd p len pos) len pos r = t at *
  have : (t : K) * r < (u + 1) * r := by linarith
  have : (t : K) < ((u + 1 : Int) : K) := by push_cast; exact lt_of_mul_lt_mul_right this g.le
  have : t < u + 1 := by exact_mod_cast this
  omega

/-- A cell whose computed centre is not below the lower corner is not below the corner's cell. -/
theorem le_cut (h : Axis rd n pos len r T) (hrd : DoublePrecision rd) (ht : T ≤ 2 ^ 43 * r) {p : K}
    (hp : CornerOk n r pos p) {u : Int} (hu : 0 ≤ u) (hu' : u < n) (hc : p - r / 16 ≤ centreRd rd u len pos r) :
    u ≤ cutCell rd p len pos r := by
  obtain ⟨-, -, -, -, -, t2⟩ := h.cut hrd hp
  have e := abs_le.mp (h.centre_err hrd hu hu')
  have hU := tame_unit h ht
  have g := h.r_pos
  have hn := h.unit_nonneg
  have hu1 : r * u + r ≤ n * r := by
    have : (u : K) + 1 ≤ n := by exact_mod_cast hu'
    nlinarith
  have hm : r / 2 + r * u - 13 * (T / 2 ^ 53) - r / 16 ≤ max 0 (min ((n : K) * r) (pos + n * r / 2 - p)) := by
    refine le_max_of_le_right (le_min (by linarith) (by linarith [e.2]))
  unfold cutCell
  generalize cellRd rd (boundPosition1Rd rd p len pos) len pos r = t at *
  have : (u : K) * r < (t + 1) * r := by linarith
  have : (u : K) < ((t + 1 : Int) : K) := by push_cast; exact lt_of_mul_lt_mul_right this g.le
  have : u < t + 1 := by exact_mod_cast this
  omega

theorem cut_range (h : Axis rd n pos len r T) (hrd : DoublePrecision rd) {p : K} (hp : CornerOk n r pos p) :
    0 ≤ cutCell rd p len pos r ∧ cutCell rd p len pos r < n := by
  obtain ⟨-, -, a, b, -⟩ := h.cut hrd hp
  exact ⟨a, b⟩

/-- Corners that are apart by more than the tolerance are found in order. -/
theorem cut_mono (h : Axis rd n pos len r T) (hrd : DoublePrecision rd) {hi lo : K} (hh : CornerOk n r pos hi)
    (hl : CornerOk n r pos lo) (hlt : 65 * (T / 2 ^ 53) ≤ hi - lo) :
    cutCell rd hi len pos r ≤ cutCell rd lo len pos r := by
  obtain ⟨-, -, t0, tn, t1, t2⟩ := h.cut hrd hh
  obtain ⟨-, -, b0, bn, b1, b2⟩ := h.cut hrd hl
  unfold cutCell
  generalize cellRd rd (boundPosition1Rd rd hi len pos) len pos r = t at *
  generalize cellRd rd (boundPosition1Rd rd lo len pos) len pos r = b at *
  have g1 := h.nr_pos; have g2 := h.r_pos; have hu := h.unit_nonneg; have hu1 := h.unit
  have hT := h.T_pos
  have hu0 : 0 < T / 2 ^ 53 := by positivity
  have key : (t : K) * r < (b + 1) * r ∨ t = 0 ∨ b = n - 1 := by
    by_cases a : pos + n * r / 2 - hi ≤ 0
    · right; left
      rw [max_eq_left (min_le_of_right_le a)] at t1
      have : (t : K) * r < 1 * r := by linarith
      have : (t : K) < ((1 : Int) : K) := by push_cast; exact lt_of_mul_lt_mul_right this g2.le
      have : t < 1 := by exact_mod_cast this
      omega
    · push Not at a
      by_cases c : n * r ≤ pos + n * r / 2 - lo
      · right; right
        rw [min_eq_left c, max_eq_right (by linarith)] at b2
        have : ((n - 1 : Int) : K) * r < (b + 1) * r := by push_cast; linarith
        have : ((n - 1 : Int) : K) < ((b + 1 : Int) : K) := by
          push_cast at this ⊢; exact lt_of_mul_lt_mul_right this g2.le
        have : n - 1 < b + 1 := by exact_mod_cast this
        omega
      · push Not at c
        left
        rw [min_eq_right (by linarith), max_eq_right (by linarith)] at b2
        rw [min_eq_right (by linarith), max_eq_right (by linarith)] at t1
        linarith
  rcases key with k | k | k
  · have : (t : K) < ((b + 1 : Int) : K) := by push_cast; exact lt_of_mul_lt_mul_right k g2.le
    have : t < b + 1 := by exact_mod_cast this
    omega
  · omega
  · omega

end Axis

/-- Relative bounds of a rounded nonnegative number. -/
theorem rd_rel {rd : K → K} (hrd : DoublePrecision rd) {x a b : K} (ha : 0 ≤ a) (h1 : a ≤ x) (h2 : x ≤ b) :
    (1 - 1 / 2 ^ 53) * a ≤ rd x ∧ rd x ≤ (1 + 1 / 2 ^ 53) * b := by
  have h := hrd x
  rw [abs_of_nonneg (ha.trans h1), abs_le] at h
  have e1 : (1 - 1 / 2 ^ 53 : K) * a ≤ (1 - 1 / 2 ^ 53) * x := mul_le_mul_of_nonneg_left h1 (by norm_num)
  have e2 : (1 + 1 / 2 ^ 53 : K) * x ≤ (1 + 1 / 2 ^ 53) * b := mul_le_mul_of_nonneg_left h2 (by norm_num)
  constructor
  · calc _ ≤ _ := e1
      _ = x - x / 2 ^ 53 := by ring
      _ ≤ _ := by linarith
  · calc rd x ≤ x + x / 2 ^ 53 := by linarith
      _ = (1 + 1 / 2 ^ 53) * x := by ring
      _ ≤ _ := e2

/-- The square of a rounded number. -/
theorem rd_sq {rd : K → K} (hrd : DoublePrecision rd) (d : K) :
    (1 - 1 / 2 ^ 53) ^ 3 * d ^ 2 ≤ rd (rd d ^ 2) ∧ rd (rd d ^ 2) ≤ (1 + 1 / 2 ^ 53) ^ 3 * d ^ 2 := by
  have h := hrd d
  have hd := abs_nonneg d
  have l : (1 - 1 / 2 ^ 53) * |d| ≤ |rd d| := by
    have := abs_sub_abs_le_abs_sub d (rd d)
    rw [abs_sub_comm d] at this
    linarith
  have u : |rd d| ≤ (1 + 1 / 2 ^ 53) * |d| := by
    have := abs_sub_abs_le_abs_sub (rd d) d
    linarith
  have l2 : (1 - 1 / 2 ^ 53) ^ 2 * d ^ 2 ≤ rd d ^ 2 := by
    rw [← sq_abs d, ← sq_abs (rd d), ← mul_pow]
    exact pow_le_pow_left₀ (mul_nonneg (by norm_num) hd) l 2
  have u2 : rd d ^ 2 ≤ (1 + 1 / 2 ^ 53) ^ 2 * d ^ 2 := by
    rw [← sq_abs d, ← sq_abs (rd d), ← mul_pow]
    exact pow_le_pow_left₀ (abs_nonneg _) u 2
  obtain ⟨a, b⟩ := rd_rel hrd (mul_nonneg (by positivity) (sq_nonneg d)) l2 u2
  exact ⟨by linarith, by linarith⟩

/-- The sum of two squares of rounded numbers. -/
theorem rd_sumsq {rd : K → K} (hrd : DoublePrecision rd) (d e : K) :
    (1 - 1 / 2 ^ 53) ^ 4 * (d ^ 2 + e ^ 2) ≤ rd (rd (rd d ^ 2) + rd (rd e ^ 2)) ∧
      rd (rd (rd d ^ 2) + rd (rd e ^ 2)) ≤ (1 + 1 / 2 ^ 53) ^ 4 * (d ^ 2 + e ^ 2) := by
  obtain ⟨a1, a2⟩ := rd_sq hrd d
  obtain ⟨b1, b2⟩ := rd_sq hrd e
  obtain ⟨c1, c2⟩ := rd_rel hrd (x := rd (rd d ^ 2) + rd (rd e ^ 2)) (a := (1 - 1 / 2 ^ 53) ^ 3 * (d ^ 2 + e ^ 2))
    (b := (1 + 1 / 2 ^ 53) ^ 3 * (d ^ 2 + e ^ 2))
    (mul_nonneg (pow_nonneg (by norm_num) 3) (add_nonneg (sq_nonneg d) (sq_nonneg e))) (by linarith) (by linarith)
  exact ⟨by linarith, by linarith⟩

/-- The circle test, up to rounding. -/
theorem circleShapeRd_spec {rd : K → K} (hrd : DoublePrecision rd) (center : Vec K) (radius : K) (p : Vec K) :
    (circleShapeRd rd center radius p = true → dist2 p center ≤ (1 + 1 / 2 ^ 50) * radius ^ 2) ∧
    (dist2 p center ≤ (1 - 1 / 2 ^ 50) * radius ^ 2 → circleShapeRd rd center radius p = true) := by
  obtain ⟨a, b⟩ := rd_sumsq hrd (p.x - center.x) (p.y - center.y)
  obtain ⟨c, d⟩ := rd_rel hrd (x := radius ^ 2) (sq_nonneg radius) le_rfl le_rfl
  have hR := sq_nonneg radius
  have hD : 0 ≤ dist2 p center := add_nonneg (sq_nonneg _) (sq_nonneg _)
  simp only [circleShapeRd, decide_eq_true_eq]
  rw [show (p.x - center.x) ^ 2 + (p.y - center.y) ^ 2 = dist2 p center from rfl] at a b
  generalize rd (rd (rd (p.x - center.x) ^ 2) + rd (rd (p.y - center.y) ^ 2)) = S at *
  generalize rd (radius ^ 2) = Q at *
  generalize radius ^ 2 = R at *
  generalize dist2 p center = D at *
  constructor
  · intro h
    have h1 : (1 - 1 / 2 ^ 53 : K) ^ 4 * D ≤ (1 + 1 / 2 ^ 53) * R := by linarith
    have h2 : (1 + 1 / 2 ^ 53 : K) ≤ (1 - 1 / 2 ^ 53) ^ 4 * (1 + 1 / 2 ^ 50) := by norm_num
    have h3 : (1 - 1 / 2 ^ 53 : K) ^ 4 * D ≤ (1 - 1 / 2 ^ 53) ^ 4 * ((1 + 1 / 2 ^ 50) * R) :=
      h1.trans (by rw [← mul_assoc]; exact mul_le_mul_of_nonneg_right h2 hR)
    exact le_of_mul_le_mul_left h3 (by norm_num)
  · intro h
    have h1 : (1 + 1 / 2 ^ 53 : K) ^ 4 * D ≤ (1 + 1 / 2 ^ 53) ^ 4 * ((1 - 1 / 2 ^ 50) * R) :=
      mul_le_mul_of_nonneg_left h (by positivity)
    have h2 : (1 + 1 / 2 ^ 53 : K) ^ 4 * (1 - 1 / 2 ^ 50) ≤ 1 - 1 / 2 ^ 53 := by norm_num
    have h3 := mul_le_mul_of_nonneg_right h2 hR
    linarith

/-- One axis of a point in the circle lies between the computed corners, up to a small part of a cell. -/
theorem circle_axis {rd : K → K} (hrd : DoublePrecision rd) {c R r d : K} (hR : 0 ≤ R) (hr : 0 < r)
    (hs : |c| + R ≤ 2 ^ 43 * r) (hd : (d - c) ^ 2 ≤ (1 + 1 / 2 ^ 50) * R ^ 2) :
    d ≤ rd (c + R) + r / 16 ∧ rd (c - R) - r / 16 ≤ d := by
  have h1 : |d - c| ≤ (1 + 1 / 2 ^ 50) * R := by
    apply abs_le_of_sq_le_sq _ (mul_nonneg (by norm_num) hR)
    refine hd.trans ?_
    rw [mul_pow]
    exact mul_le_mul_of_nonneg_right (by norm_num) (sq_nonneg R)
  have a := hrd (c + R)
  have b := hrd (c - R)
  have e1 : |c + R| ≤ 2 ^ 43 * r := (abs_add_le c R).trans (by rw [abs_of_nonneg hR]; exact hs)
  have e2 : |c - R| ≤ 2 ^ 43 * r := (abs_sub c R).trans (by rw [abs_of_nonneg hR]; exact hs)
  have e3 : ∀ x, x ≤ 2 ^ 43 * r → x / 2 ^ 53 ≤ r / 1024 := by
    intro x hx
    rw [div_le_iff₀ (by positivity)]
    linarith
  have e4 := e3 _ e1
  have e5 := e3 _ e2
  have e6 : (1 + 1 / 2 ^ 50) * R ≤ R + r / 128 := by
    have : R ≤ 2 ^ 43 * r := by linarith [abs_nonneg c]
    linarith
  rw [abs_le] at a b h1
  constructor <;> linarith

/-- Two numbers with the same small relative error. -/
theorem rd_two_sided {rd : K → K} (hrd : DoublePrecision rd) (x : K) : ∃ d, |d| ≤ 1 / 2 ^ 53 ∧ rd x = x * (1 + d) := by
  by_cases hx : x = 0
  · subst hx
    refine ⟨0, by simp, ?_⟩
    have := hrd 0
    simp only [sub_zero, abs_zero, zero_div] at this
    rw [abs_nonpos_iff.mp this]; simp
  · refine ⟨(rd x - x) / x, ?_, ?_⟩
    · rw [abs_div, div_le_iff₀ (abs_pos.mpr hx)]
      have := hrd x
      linarith
    · field_simp
      ring

/-- The part of an edge that the crossing test computes, up to rounding: `a * b / d` with `b / d` between 0 and 1. -/
theorem rd_edge {rd : K → K} (hrd : DoublePrecision rd) {a b d : K} (hd : d ≠ 0) (h0 : 0 ≤ b / d) (h1 : b / d ≤ 1) :
    |rd (rd (rd a * rd b) / rd d) - a * b / d| ≤ 6 * (|a| / 2 ^ 53) := by
  obtain ⟨e1, h1', r1⟩ := rd_two_sided hrd a
  obtain ⟨e2, h2', r2⟩ := rd_two_sided hrd b
  obtain ⟨e3, h3', r3⟩ := rd_two_sided hrd d
  obtain ⟨e4, h4', r4⟩ := rd_two_sided hrd (rd a * rd b)
  obtain ⟨e5, h5', r5⟩ := rd_two_sided hrd (rd (rd a * rd b) / rd d)
  rw [r5, r4, r1, r2, r3]
  have hu : (1 : K) / 2 ^ 53 ≤ 1 / 1000 := by norm_num
  have hu0 : (0 : K) < 1 / 2 ^ 53 := by positivity
  generalize hU : (1 : K) / 2 ^ 53 = U at *
  have hq : a * (1 + e1) * (b * (1 + e2)) * (1 + e4) / (d * (1 + e3)) * (1 + e5) =
      a * (b / d) * ((1 + e1) * (1 + e2) * (1 + e4) * (1 + e5) / (1 + e3)) := by
    rw [abs_le] at h3'
    have : 1 + e3 ≠ 0 := by linarith
    field_simp
  rw [hq, mul_div_assoc a b d]
  rw [show a * (b / d) * ((1 + e1) * (1 + e2) * (1 + e4) * (1 + e5) / (1 + e3)) - a * (b / d) =
    a * (b / d) * ((1 + e1) * (1 + e2) * (1 + e4) * (1 + e5) / (1 + e3) - 1) by ring, abs_mul, abs_mul, abs_of_nonneg h0]
  have key : |(1 + e1) * (1 + e2) * (1 + e4) * (1 + e5) / (1 + e3) - 1| ≤ 6 * U := by
    rw [abs_le] at h1' h2' h3' h4' h5'
    have hp : 0 < 1 + e3 := by linarith
    have b1 : (1 + e1) * (1 + e2) ≤ (1 + U) * (1 + U) :=
      mul_le_mul (by linarith) (by linarith) (by linarith) (by linarith)
    have b2 : (1 + e1) * (1 + e2) * (1 + e4) ≤ (1 + U) * (1 + U) * (1 + U) :=
      mul_le_mul b1 (by linarith) (by linarith) (by positivity)
    have b3 : (1 + e1) * (1 + e2) * (1 + e4) * (1 + e5) ≤ (1 + U) * (1 + U) * (1 + U) * (1 + U) :=
      mul_le_mul b2 (by linarith) (by linarith) (by positivity)
    have v : 0 ≤ 1 - U := by linarith
    have c1 : (1 - U) * (1 - U) ≤ (1 + e1) * (1 + e2) :=
      mul_le_mul (by linarith) (by linarith) (by linarith) (by linarith)
    have c2 : (1 - U) * (1 - U) * (1 - U) ≤ (1 + e1) * (1 + e2) * (1 + e4) :=
      mul_le_mul c1 (by linarith) (by linarith) (mul_nonneg (by linarith) (by linarith))
    have c3 : (1 - U) * (1 - U) * (1 - U) * (1 - U) ≤ (1 + e1) * (1 + e2) * (1 + e4) * (1 + e5) :=
      mul_le_mul c2 (by linarith) (by linarith)
        (mul_nonneg (mul_nonneg (by linarith) (by linarith)) (by linarith))
    have d1 : (1 + U) * (1 + U) * (1 + U) * (1 + U) ≤ (1 + 6 * U) * (1 - U) := by nlinarith
    have d2 : (1 - 6 * U) * (1 + U) ≤ (1 - U) * (1 - U) * (1 - U) * (1 - U) := by nlinarith
    have d3 : (1 + 6 * U) * (1 - U) ≤ (1 + 6 * U) * (1 + e3) := mul_le_mul_of_nonneg_left (by linarith) (by linarith)
    have d4 : (1 - 6 * U) * (1 + e3) ≤ (1 - 6 * U) * (1 + U) := mul_le_mul_of_nonneg_left (by linarith) (by linarith)
    rw [abs_le]
    constructor
    · have : 1 - 6 * U ≤ (1 + e1) * (1 + e2) * (1 + e4) * (1 + e5) / (1 + e3) := by
        rw [le_div_iff₀ hp]; linarith
      linarith
    · have : (1 + e1) * (1 + e2) * (1 + e4) * (1 + e5) / (1 + e3) ≤ 1 + 6 * U := by
        rw [div_le_iff₀ hp]; linarith
      linarith
  have ha := abs_nonneg a
  calc |a| * (b / d) * |(1 + e1) * (1 + e2) * (1 + e4) * (1 + e5) / (1 + e3) - 1| ≤ |a| * 1 * (6 * U) :=
        mul_le_mul (mul_le_mul_of_nonneg_left h1 ha) key (abs_nonneg _) (by linarith)
    _ = 6 * (|a| / 2 ^ 53) := by rw [← hU]; ring

/-- The abscissa where an edge crosses the line through `p`, as computed. -/
def edgeRd (rd : K → K) (p vi vj : Vec K) : K :=
  rd (rd (rd (rd (vj.x - vi.x) * rd (p.y - vi.y)) / rd (vj.y - vi.y)) + vi.x)

/-- The crossing of an edge, up to rounding. -/
theorem edgeRd_err {rd : K → K} (hrd : DoublePrecision rd) {p vi vj : Vec K} {W : K} (hi : |vi.x| ≤ W) (hj : |vj.x| ≤ W)
    (hs : (decide (p.y < vi.y) != decide (p.y < vj.y)) = true) :
    |edgeRd rd p vi vj - ((vj.x - vi.x) * (p.y - vi.y) / (vj.y - vi.y) + vi.x)| ≤ W / 2 ^ 49 := by
  rw [abs_le] at hi hj
  have hW : 0 ≤ W := by linarith
  obtain ⟨-, -, l, u⟩ := crosses_bounds (p := p) (vi := vi) (vj := vj) (lo := ⟨-W, min vi.y vj.y⟩)
    (hi := ⟨W, max vi.y vj.y⟩) hi ⟨min_le_left _ _, le_max_left _ _⟩ hj ⟨min_le_right _ _, le_max_right _ _⟩ hs
  simp only at l u
  have hne : vj.y - vi.y ≠ 0 := by
    intro h0
    have : vj.y = vi.y := by linarith
    rw [this] at hs
    simp at hs
  have hq : 0 ≤ (p.y - vi.y) / (vj.y - vi.y) ∧ (p.y - vi.y) / (vj.y - vi.y) ≤ 1 := by
    rcases lt_or_ge p.y vi.y with h1 | h1 <;> rcases lt_or_ge p.y vj.y with h2 | h2
    · simp [h1, h2] at hs
    · exact ⟨div_nonneg_of_nonpos (by linarith) (by linarith), by rw [div_le_one_of_neg (by linarith)]; linarith⟩
    · exact ⟨div_nonneg (by linarith) (by linarith), by rw [div_le_one (by linarith)]; linarith⟩
    · simp [not_lt.mpr h1, not_lt.mpr h2] at hs
  have e := rd_edge hrd (a := vj.x - vi.x) hne hq.1 hq.2
  have ha : |vj.x - vi.x| ≤ 2 * W := by rw [abs_le]; constructor <;> linarith
  have ha' : |vj.x - vi.x| / 2 ^ 53 ≤ 2 * W / 2 ^ 53 := div_le_div_of_nonneg_right ha (by positivity)
  unfold edgeRd
  generalize rd (rd (rd (vj.x - vi.x) * rd (p.y - vi.y)) / rd (vj.y - vi.y)) = t at *
  generalize (vj.x - vi.x) * (p.y - vi.y) / (vj.y - vi.y) = q at *
  have e2 := hrd (t + vi.x)
  have e3 : 2 * W / 2 ^ 53 = 2 * (W / 2 ^ 53) := by ring
  have hWu : 0 ≤ W / 2 ^ 53 := by positivity
  have e4 : W / 2 ^ 53 ≤ W / 12 := div_le_div_of_nonneg_left hW (by norm_num) (by norm_num)
  have e5 : W / 2 ^ 49 = 16 * (W / 2 ^ 53) := by ring
  rw [abs_le] at e
  have e6 : |t + vi.x| ≤ 2 * W := by rw [abs_le]; constructor <;> linarith
  have e7 : |t + vi.x| / 2 ^ 53 ≤ 2 * W / 2 ^ 53 := div_le_div_of_nonneg_right e6 (by positivity)
  rw [abs_le] at e2 ⊢
  constructor <;> linarith

theorem crossesRd_eq {rd : K → K} (p vi vj : Vec K) : crossesRd rd p vi vj =
    ((decide (p.y < vi.y) != decide (p.y < vj.y)) && decide (p.x < edgeRd rd p vi vj)) := rfl

/-- A point the computed crossing test accepts lies in every box that contains all vertices, up to the tolerance. -/
theorem polygonInsideRd_in_box {rd : K → K} (hrd : DoublePrecision rd) {vs : List (Vec K)} {lo hi : Vec K} {W : K}
    (hv : ∀ v ∈ vs, (lo.x ≤ v.x ∧ v.x ≤ hi.x) ∧ (lo.y ≤ v.y ∧ v.y ≤ hi.y)) (hW : ∀ v ∈ vs, |v.x| ≤ W) {p : Vec K}
    (hp : polygonInsideRd rd vs p = true) :
    (lo.x - W / 2 ^ 49 ≤ p.x ∧ p.x ≤ hi.x + W / 2 ^ 49) ∧ (lo.y ≤ p.y ∧ p.y ≤ hi.y) := by
  unfold polygonInsideRd at hp
  split at hp
  · cases hp
  · rename_i l hl
    have hlm : l ∈ vs := List.mem_of_getLast? hl
    simp only [decide_eq_true_eq] at hp
    have hbd : ∀ e ∈ List.zip (l :: vs) vs, (decide (p.y < e.2.y) != decide (p.y < e.1.y)) = true →
        lo.y ≤ p.y ∧ p.y ≤ hi.y ∧ lo.x - W / 2 ^ 49 ≤ edgeRd rd p e.2 e.1 ∧ edgeRd rd p e.2 e.1 ≤ hi.x + W / 2 ^ 49 := by
      intro e he hs
      obtain ⟨h1, h2⟩ := mem_of_mem_zip_cons hlm he
      obtain ⟨a, b, c, d⟩ := crosses_bounds (hv _ h2).1 (hv _ h2).2 (hv _ h1).1 (hv _ h1).2 hs
      have := abs_le.mp (edgeRd_err hrd (hW _ h2) (hW _ h1) hs)
      exact ⟨a, b, by linarith [this.1], by linarith [this.2]⟩
    have hne : ((List.zip (l :: vs) vs).filter fun e => crossesRd rd p e.2 e.1) ≠ [] := by
      intro h; rw [h] at hp; simp at hp
    obtain ⟨e, he⟩ := List.exists_mem_of_ne_nil _ hne
    rw [List.mem_filter] at he
    obtain ⟨he, hc⟩ := he
    simp only [crossesRd_eq, Bool.and_eq_true, decide_eq_true_eq] at hc
    obtain ⟨b1, b2, b3, b4⟩ := hbd e he hc.1
    refine ⟨⟨?_, by linarith [hc.2]⟩, b1, b2⟩
    by_contra hlt
    push Not at hlt
    have hall : ∀ e ∈ List.zip (l :: vs) vs, crossesRd rd p e.2 e.1 =
        ((fun v : Vec K => decide (p.y < v.y)) e.2 != (fun v : Vec K => decide (p.y < v.y)) e.1) := by
      intro e he
      simp only [crossesRd_eq]
      by_cases hs : (decide (p.y < e.2.y) != decide (p.y < e.1.y)) = true
      · have := (hbd e he hs).2.2.1
        rw [hs]
        simp only [Bool.true_and, decide_eq_true_eq]
        linarith
      · have hs' : (decide (p.y < e.2.y) != decide (p.y < e.1.y)) = false := by simpa using hs
        rw [hs']; rfl
    rw [List.filter_congr hall] at hp
    have := straddle_even (fun v : Vec K => decide (p.y < v.y)) vs l hl
    rw [hp] at this
    cases this


/-! ## Ellipse -/

theorem IsRotation.abs_le {c s : K} (h : IsRotation c s) : |c| ≤ 1 + 1 / 2 ^ 40 ∧ |s| ≤ 1 + 1 / 2 ^ 40 := by
  unfold IsRotation at h
  rw [_root_.abs_le] at h
  have h1 : (1 : K) + 1 / 2 ^ 40 ≤ (1 + 1 / 2 ^ 40) ^ 2 := by norm_num
  constructor
  · exact abs_le_of_sq_le_sq (by linarith [sq_nonneg s]) (by norm_num)
  · exact abs_le_of_sq_le_sq (by linarith [sq_nonneg c]) (by norm_num)

/-- Three small relative errors. -/
theorem three_err {a b c : K} (ha : |a| ≤ 1 / 2 ^ 53) (hb : |b| ≤ 1 / 2 ^ 53) (hc : |c| ≤ 1 / 2 ^ 53) :
    |(1 + a) * (1 + b) * (1 + c) - 1| ≤ 4 / 2 ^ 53 := by
  have hu : (1 : K) / 2 ^ 53 ≤ 1 / 1000 := by norm_num
  have hu0 : (0 : K) < 1 / 2 ^ 53 := by positivity
  have e : (4 : K) / 2 ^ 53 = 4 * (1 / 2 ^ 53) := by ring
  rw [e]
  generalize (1 : K) / 2 ^ 53 = U at *
  rw [abs_le] at *
  have b1 : (1 + a) * (1 + b) ≤ (1 + U) * (1 + U) := mul_le_mul (by linarith) (by linarith) (by linarith) (by linarith)
  have b2 : (1 + a) * (1 + b) * (1 + c) ≤ (1 + U) * (1 + U) * (1 + U) :=
    mul_le_mul b1 (by linarith) (by linarith) (by positivity)
  have c1 : (1 - U) * (1 - U) ≤ (1 + a) * (1 + b) := mul_le_mul (by linarith) (by linarith) (by linarith) (by linarith)
  have c2 : (1 - U) * (1 - U) * (1 - U) ≤ (1 + a) * (1 + b) * (1 + c) :=
    mul_le_mul c1 (by linarith) (by linarith) (mul_nonneg (by linarith) (by linarith))
  have d1 : (1 + U) * (1 + U) * (1 + U) ≤ 1 + 4 * U := by nlinarith
  have d2 : 1 - 4 * U ≤ (1 - U) * (1 - U) * (1 - U) := by nlinarith
  constructor <;> linarith

/-- One coordinate of the rotated offset, up to rounding. -/
theorem rot_err {rd : K → K} (hrd : DoublePrecision rd) {c s : K} (hc : |c| ≤ 1 + 1 / 2 ^ 40) (hs : |s| ≤ 1 + 1 / 2 ^ 40)
    (dx dy : K) :
    |rd (rd (c * rd dx) + rd (s * rd dy)) - (c * dx + s * dy)| ≤ 5 / 2 ^ 53 * (|dx| + |dy|) := by
  obtain ⟨e1, h1, r1⟩ := rd_two_sided hrd dx
  obtain ⟨e2, h2, r2⟩ := rd_two_sided hrd dy
  obtain ⟨e3, h3, r3⟩ := rd_two_sided hrd (c * rd dx)
  obtain ⟨e4, h4, r4⟩ := rd_two_sided hrd (s * rd dy)
  obtain ⟨e5, h5, r5⟩ := rd_two_sided hrd (rd (c * rd dx) + rd (s * rd dy))
  rw [r5, r3, r4, r1, r2]
  have k1 := three_err h1 h3 h5
  have k2 := three_err h2 h4 h5
  have e : (c * (dx * (1 + e1)) * (1 + e3) + s * (dy * (1 + e2)) * (1 + e4)) * (1 + e5) - (c * dx + s * dy) =
      c * dx * ((1 + e1) * (1 + e3) * (1 + e5) - 1) + s * dy * ((1 + e2) * (1 + e4) * (1 + e5) - 1) := by ring
  rw [e]
  have bnd : ∀ a d q : K, |a| ≤ 1 + 1 / 2 ^ 40 → |q| ≤ 4 / 2 ^ 53 → |a * d * q| ≤ 5 / 2 ^ 53 * |d| := by
    intro a d q ha hq
    rw [abs_mul, abs_mul]
    have h0 : |a| * |d| ≤ (1 + 1 / 2 ^ 40) * |d| := mul_le_mul_of_nonneg_right ha (abs_nonneg d)
    calc |a| * |d| * |q| ≤ (1 + 1 / 2 ^ 40) * |d| * (4 / 2 ^ 53) :=
          mul_le_mul h0 hq (abs_nonneg q) (mul_nonneg (by norm_num) (abs_nonneg d))
      _ = (1 + 1 / 2 ^ 40) * (4 / 2 ^ 53) * |d| := by ring
      _ ≤ 5 / 2 ^ 53 * |d| := mul_le_mul_of_nonneg_right (by norm_num) (abs_nonneg d)
  exact (abs_add_le _ _).trans ((add_le_add (bnd _ _ _ hc k1) (bnd _ _ _ hs k2)).trans (le_of_eq (mul_add _ _ _).symm))

/-- The offset from the rotated offset. -/
theorem unrotate {c s dx dy : K} (h : IsRotation c s) :
    |dx| + |dy| ≤ 3 * (|c * dx + s * dy| + |s * dx - c * dy|) := by
  obtain ⟨hc, hs⟩ := h.abs_le
  have hq := abs_le.mp h
  set u := c * dx + s * dy with hu
  set v := s * dx - c * dy with hv
  have hN : 1 - 1 / 2 ^ 40 ≤ c ^ 2 + s ^ 2 := by linarith [hq.1]
  have ex : (c ^ 2 + s ^ 2) * dx = c * u + s * v := by rw [hu, hv]; ring
  have ey : (c ^ 2 + s ^ 2) * dy = s * u + -c * v := by rw [hu, hv]; ring
  have bnd : ∀ d a b : K, (c ^ 2 + s ^ 2) * d = a * u + b * v → |a| ≤ 1 + 1 / 2 ^ 40 → |b| ≤ 1 + 1 / 2 ^ 40 →
      |d| ≤ 3 / 2 * (|u| + |v|) := by
    intro d a b he ha hb
    have h1 : |(c ^ 2 + s ^ 2) * d| ≤ (1 + 1 / 2 ^ 40) * (|u| + |v|) := by
      rw [he]
      refine (abs_add_le _ _).trans ?_
      rw [abs_mul, abs_mul, mul_add]
      exact add_le_add (mul_le_mul_of_nonneg_right ha (abs_nonneg u)) (mul_le_mul_of_nonneg_right hb (abs_nonneg v))
    rw [abs_mul, abs_of_nonneg (by positivity)] at h1
    have h2 := mul_le_mul_of_nonneg_right hN (abs_nonneg d)
    have hs' := add_nonneg (abs_nonneg u) (abs_nonneg v)
    generalize |u| + |v| = S at *
    have h3 : (1 - 1 / 2 ^ 40) * |d| ≤ (1 - 1 / 2 ^ 40) * (3 / 2 * S) := by
      have : (1 + 1 / 2 ^ 40 : K) * S ≤ (1 - 1 / 2 ^ 40) * (3 / 2) * S := mul_le_mul_of_nonneg_right (by norm_num) hs'
      linarith
    exact le_of_mul_le_mul_left h3 (by norm_num)
  have b1 := bnd dx c s ex hc hs
  have b2 := bnd dy s (-c) ey hs (by rw [abs_neg]; exact hc)
  linarith

/-- Squares of two numbers with a small error relative to their sum. -/
theorem sumsq_err {X Y X' Y' e : K} (he : 0 ≤ e) (he' : e ≤ 1 / 1000) (hx : |X' - X| ≤ e * (|X| + |Y|))
    (hy : |Y' - Y| ≤ e * (|X| + |Y|)) :
    (1 - 5 * e) * (X ^ 2 + Y ^ 2) ≤ X' ^ 2 + Y' ^ 2 ∧ X' ^ 2 + Y' ^ 2 ≤ (1 + 5 * e) * (X ^ 2 + Y ^ 2) := by
  have hS : (|X| + |Y|) ^ 2 ≤ 2 * (X ^ 2 + Y ^ 2) := by
    rw [← sq_abs X, ← sq_abs Y]
    nlinarith [sq_nonneg (|X| - |Y|)]
  have hS0 : 0 ≤ |X| + |Y| := add_nonneg (abs_nonneg X) (abs_nonneg Y)
  have one : ∀ x x' : K, |x' - x| ≤ e * (|X| + |Y|) →
      x ^ 2 - 2 * |x| * (e * (|X| + |Y|)) ≤ x' ^ 2 ∧
        x' ^ 2 ≤ x ^ 2 + 2 * |x| * (e * (|X| + |Y|)) + (e * (|X| + |Y|)) ^ 2 := by
    intro x x' h
    have hx' : x' = x + (x' - x) := by ring
    generalize x' - x = d at *
    subst hx'
    have h1 : |x * d| ≤ |x| * (e * (|X| + |Y|)) := by
      rw [abs_mul]; exact mul_le_mul_of_nonneg_left h (abs_nonneg x)
    have h2 : d ^ 2 ≤ (e * (|X| + |Y|)) ^ 2 := by
      rw [← sq_abs d]; exact pow_le_pow_left₀ (abs_nonneg d) h 2
    rw [abs_le] at h1
    constructor
    · nlinarith [sq_nonneg d]
    · nlinarith
  obtain ⟨a1, a2⟩ := one X X' hx
  obtain ⟨b1, b2⟩ := one Y Y' hy
  have k : 2 * |X| * (e * (|X| + |Y|)) + 2 * |Y| * (e * (|X| + |Y|)) ≤ 4 * e * (X ^ 2 + Y ^ 2) := by
    have : 2 * |X| * (e * (|X| + |Y|)) + 2 * |Y| * (e * (|X| + |Y|)) = 2 * e * (|X| + |Y|) ^ 2 := by ring
    rw [this]
    nlinarith
  have hQ : 0 ≤ X ^ 2 + Y ^ 2 := by positivity
  have k2 : 2 * (e * (|X| + |Y|)) ^ 2 ≤ e * (X ^ 2 + Y ^ 2) := by
    have : 2 * (e * (|X| + |Y|)) ^ 2 = e * (2 * e * (|X| + |Y|) ^ 2) := by ring
    rw [this]
    apply mul_le_mul_of_nonneg_left _ he
    calc 2 * e * (|X| + |Y|) ^ 2 ≤ 2 * e * (2 * (X ^ 2 + Y ^ 2)) := mul_le_mul_of_nonneg_left hS (by linarith)
      _ ≤ 1 * (X ^ 2 + Y ^ 2) := by
        rw [← mul_assoc]; exact mul_le_mul_of_nonneg_right (by linarith) hQ
      _ = _ := one_mul _
  have k3 : 0 ≤ e * (X ^ 2 + Y ^ 2) := mul_nonneg he hQ
  constructor <;> linarith

/-- A quotient of squares, up to rounding. -/
theorem rd_quot {rd : K → K} (hrd : DoublePrecision rd) {w a : K} (ha : 0 < a) :
    0 < rd (rd a ^ 2) ∧ (1 - 6 / 2 ^ 53) * (w / a) ^ 2 ≤ rd (rd (w ^ 2) / rd (rd a ^ 2)) ∧
      rd (rd (w ^ 2) / rd (rd a ^ 2)) ≤ (1 + 6 / 2 ^ 53) * (w / a) ^ 2 := by
  obtain ⟨s1, s2⟩ := rd_sq hrd a
  obtain ⟨w1, w2⟩ := rd_rel hrd (x := w ^ 2) (sq_nonneg w) le_rfl le_rfl
  have a2 : 0 < a ^ 2 := by positivity
  have hpos : 0 < rd (rd a ^ 2) := lt_of_lt_of_le (mul_pos (by norm_num) a2) s1
  have hw := sq_nonneg w
  rw [div_pow]
  generalize rd (rd a ^ 2) = A at *
  generalize rd (w ^ 2) = W at *
  generalize w ^ 2 = V at *
  generalize a ^ 2 = B at *
  have l : (1 - 1 / 2 ^ 53) * V / ((1 + 1 / 2 ^ 53) ^ 3 * B) ≤ W / A :=
    div_le_div₀ (le_trans (mul_nonneg (by norm_num) hw) w1) w1 hpos s2
  have u : W / A ≤ (1 + 1 / 2 ^ 53) * V / ((1 - 1 / 2 ^ 53) ^ 3 * B) :=
    div_le_div₀ (mul_nonneg (by norm_num) hw) w2 (mul_pos (by norm_num) a2) s1
  have hVB : 0 ≤ V / B := div_nonneg hw a2.le
  have l' : (1 - 1 / 2 ^ 53) / (1 + 1 / 2 ^ 53) ^ 3 * (V / B) ≤ W / A := by
    refine le_trans (le_of_eq ?_) l
    rw [mul_div_mul_comm]
  have u' : W / A ≤ (1 + 1 / 2 ^ 53) / (1 - 1 / 2 ^ 53) ^ 3 * (V / B) := by
    refine u.trans (le_of_eq ?_)
    rw [mul_div_mul_comm]
  generalize V / B = q at *
  obtain ⟨r1, r2⟩ := rd_rel hrd (mul_nonneg (by norm_num) hVB) l' u'
  refine ⟨hpos, le_trans ?_ r1, r2.trans ?_⟩
  · rw [← mul_assoc]
    exact mul_le_mul_of_nonneg_right (by norm_num) hVB
  · rw [← mul_assoc]
    exact mul_le_mul_of_nonneg_right (by norm_num) hVB

/-- The rotated offset in units of half the axes, up to rounding. -/
theorem rot_rel {rd : K → K} (hrd : DoublePrecision rd) {c s : K} (h : IsRotation c s) {a b ρ : K} (ha : 0 < a) (hb : 0 < b)
    (hab : a ≤ ρ * b) (hba : b ≤ ρ * a) (dx dy : K) :
    |rd (rd (c * rd dx) + rd (s * rd dy)) / a - (c * dx + s * dy) / a| ≤
      15 / 2 ^ 53 * ρ * (|(c * dx + s * dy) / a| + |(s * dx - c * dy) / b|) ∧
    |rd (rd (s * rd dx) + rd (-c * rd dy)) / b - (s * dx - c * dy) / b| ≤
      15 / 2 ^ 53 * ρ * (|(c * dx + s * dy) / a| + |(s * dx - c * dy) / b|) := by
  obtain ⟨hc, hs⟩ := h.abs_le
  have hun := unrotate (dx := dx) (dy := dy) h
  have e1 := rot_err hrd hc hs dx dy
  have e2 := rot_err hrd hs (show |-c| ≤ 1 + 1 / 2 ^ 40 by rw [abs_neg]; exact hc) dx dy
  rw [show s * dx + -c * dy = s * dx - c * dy by ring] at e2
  have hρ : 1 ≤ ρ := by
    by_contra hn
    push Not at hn
    nlinarith
  rw [← sub_div, ← sub_div, abs_div, abs_div, abs_div, abs_div, abs_of_pos ha, abs_of_pos hb]
  generalize rd (rd (c * rd dx) + rd (s * rd dy)) - (c * dx + s * dy) = E1 at *
  generalize rd (rd (s * rd dx) + rd (-c * rd dy)) - (s * dx - c * dy) = E2 at *
  have hu := abs_nonneg (c * dx + s * dy)
  have hv := abs_nonneg (s * dx - c * dy)
  generalize |c * dx + s * dy| = u at *
  generalize |s * dx - c * dy| = v at *
  have hS : 5 / 2 ^ 53 * (|dx| + |dy|) ≤ 15 / 2 ^ 53 * (u + v) := by
    calc 5 / 2 ^ 53 * (|dx| + |dy|) ≤ 5 / 2 ^ 53 * (3 * (u + v)) := mul_le_mul_of_nonneg_left hun (by positivity)
      _ = _ := by ring
  have ua : 0 ≤ u / a := div_nonneg hu ha.le
  have vb : 0 ≤ v / b := div_nonneg hv hb.le
  have eu : u = u / a * a := (div_mul_cancel₀ _ ha.ne').symm
  have ev : v = v / b * b := (div_mul_cancel₀ _ hb.ne').symm
  generalize u / a = U at *
  generalize v / b = V at *
  subst eu ev
  constructor
  · rw [div_le_iff₀ ha]
    refine e1.trans (hS.trans ?_)
    have k1 : U * a ≤ ρ * a * U := by nlinarith [mul_nonneg ua ha.le]
    have k2 : V * b ≤ ρ * a * V := by nlinarith
    have : 15 / 2 ^ 53 * ρ * (U + V) * a = 15 / 2 ^ 53 * (ρ * a * U + ρ * a * V) := by ring
    rw [this]
    exact mul_le_mul_of_nonneg_left (by linarith) (by positivity)
  · rw [div_le_iff₀ hb]
    refine e2.trans (hS.trans ?_)
    have k1 : U * a ≤ ρ * b * U := by nlinarith
    have k2 : V * b ≤ ρ * b * V := by nlinarith [mul_nonneg vb hb.le]
    have : 15 / 2 ^ 53 * ρ * (U + V) * b = 15 / 2 ^ 53 * (ρ * b * U + ρ * b * V) := by ring
    rw [this]
    exact mul_le_mul_of_nonneg_left (by linarith) (by positivity)

theorem ellipse_poly {e : K} (h0 : 0 ≤ e) (h1 : e ≤ 1 / 1000) :
    1 ≤ (1 - e / 2) * ((1 - 5 * e) * (1 + 128 / 15 * e)) ∧ (1 + e / 2) * ((1 + 5 * e) * (1 - 128 / 15 * e)) ≤ 1 := by
  have e1 : (1 - e / 2) * ((1 - 5 * e) * (1 + 128 / 15 * e)) = 1 + e * (91 / 30 - 1333 / 30 * e + 64 / 3 * (e * e)) := by ring
  have e2 : (1 + e / 2) * ((1 + 5 * e) * (1 - 128 / 15 * e)) = 1 - e * (91 / 30 + 1333 / 30 * e + 64 / 3 * (e * e)) := by ring
  have h2 := mul_nonneg h0 h0
  have k1 : 0 ≤ e * (91 / 30 - 1333 / 30 * e + 64 / 3 * (e * e)) := mul_nonneg h0 (by linarith)
  have k2 : 0 ≤ e * (91 / 30 + 1333 / 30 * e + 64 / 3 * (e * e)) := mul_nonneg h0 (by linarith)
  exact ⟨by linarith, by linarith⟩

set_option maxHeartbeats 800000 in
-- many linear goals in one context
/-- The ellipse test, up to rounding. -/
theorem ellipseShapeRd_spec {rd : K → K} (hrd : DoublePrecision rd) {center len : Vec K} {c s ρ : K} (h : IsRotation c s)
    (hx : 0 < len.x) (hy : 0 < len.y) (hxy : len.x ≤ ρ * len.y) (hyx : len.y ≤ ρ * len.x) (hρ : ρ ≤ 2 ^ 36) (p : Vec K) :
    (ellipseShapeRd rd center len c s p = true → ellipseForm center len c s p ≤ 1 + ρ / 2 ^ 46) ∧
    (ellipseForm center len c s p ≤ 1 - ρ / 2 ^ 46 → ellipseShapeRd rd center len c s p = true) := by
  have ha : 0 < 1 / 2 * len.x := by linarith
  have hb : 0 < 1 / 2 * len.y := by linarith
  obtain ⟨r1, r2⟩ := rot_rel hrd h ha hb (ρ := ρ) (by linarith) (by linarith) (p.x - center.x) (p.y - center.y)
  have hρ1 : 1 ≤ ρ := by
    by_contra hn
    push Not at hn
    nlinarith
  have he0 : 0 ≤ 15 / 2 ^ 53 * ρ := by positivity
  have he1 : 15 / 2 ^ 53 * ρ ≤ 1 / 1000 := by
    calc 15 / 2 ^ 53 * ρ ≤ 15 / 2 ^ 53 * 2 ^ 36 := mul_le_mul_of_nonneg_left hρ (by positivity)
      _ ≤ _ := by norm_num
  obtain ⟨q1, q2⟩ := sumsq_err he0 he1 r1 r2
  simp only [ellipseShapeRd]
  generalize rd (rd (c * rd (p.x - center.x)) + rd (s * rd (p.y - center.y))) = wx at *
  generalize rd (rd (s * rd (p.x - center.x)) + rd (-c * rd (p.y - center.y))) = wy at *
  have hf : ((c * (p.x - center.x) + s * (p.y - center.y)) / (1 / 2 * len.x)) ^ 2 +
      ((s * (p.x - center.x) - c * (p.y - center.y)) / (1 / 2 * len.y)) ^ 2 = ellipseForm center len c s p := by
    unfold ellipseForm
    rw [show 1 / 2 * len.x = len.x / 2 by ring, show 1 / 2 * len.y = len.y / 2 by ring]
  rw [hf] at q1 q2
  have hF : 0 ≤ ellipseForm center len c s p := by unfold ellipseForm; positivity
  generalize ellipseForm center len c s p = F at *
  obtain ⟨px, x1, x2⟩ := rd_quot hrd (w := wx) ha
  obtain ⟨py, y1, y2⟩ := rd_quot hrd (w := wy) hb
  rw [if_neg (by rintro (h | h); exacts [px.ne' h, py.ne' h])]
  rw [decide_eq_true_eq]
  have hG : 0 ≤ (wx / (1 / 2 * len.x)) ^ 2 + (wy / (1 / 2 * len.y)) ^ 2 := by positivity
  obtain ⟨t1, t2⟩ := rd_rel hrd
    (x := rd (rd (wx ^ 2) / rd (rd (1 / 2 * len.x) ^ 2)) + rd (rd (wy ^ 2) / rd (rd (1 / 2 * len.y) ^ 2)))
    (a := (1 - 6 / 2 ^ 53) * ((wx / (1 / 2 * len.x)) ^ 2 + (wy / (1 / 2 * len.y)) ^ 2))
    (b := (1 + 6 / 2 ^ 53) * ((wx / (1 / 2 * len.x)) ^ 2 + (wy / (1 / 2 * len.y)) ^ 2))
    (mul_nonneg (by norm_num) hG) (by linarith) (by linarith)
  generalize rd (rd (rd (wx ^ 2) / rd (rd (1 / 2 * len.x) ^ 2)) + rd (rd (wy ^ 2) / rd (rd (1 / 2 * len.y) ^ 2))) = v at *
  generalize (wx / (1 / 2 * len.x)) ^ 2 + (wy / (1 / 2 * len.y)) ^ 2 = G at *
  have ee : ρ / 2 ^ 46 = 128 / 15 * (15 / 2 ^ 53 * ρ) := by ring
  have e1 : 15 / 2 ^ 53 * 1 ≤ 15 / 2 ^ 53 * ρ := mul_le_mul_of_nonneg_left hρ1 (by positivity)
  rw [ee]
  generalize 15 / 2 ^ 53 * ρ = e at *
  have g0 : (1 - e / 2) * G ≤ v := by
    refine le_trans ?_ t1
    rw [← mul_assoc]
    refine mul_le_mul_of_nonneg_right ?_ hG
    have : (1 : K) - 15 / 2 ^ 53 / 2 ≤ (1 - 1 / 2 ^ 53) * (1 - 6 / 2 ^ 53) := by norm_num
    linarith
  have g1 : v ≤ (1 + e / 2) * G := by
    refine t2.trans ?_
    rw [← mul_assoc]
    refine mul_le_mul_of_nonneg_right ?_ hG
    have : (1 + 1 / 2 ^ 53 : K) * (1 + 6 / 2 ^ 53) ≤ 1 + 15 / 2 ^ 53 / 2 := by norm_num
    linarith
  constructor
  · intro hv
    have : (1 - e / 2) * ((1 - 5 * e) * F) ≤ 1 :=
      (mul_le_mul_of_nonneg_left q1 (by linarith)).trans (g0.trans hv)
    by_contra hn
    push Not at hn
    have k1 : (1 - e / 2) * ((1 - 5 * e) * (1 + 128 / 15 * e)) < (1 - e / 2) * ((1 - 5 * e) * F) :=
      mul_lt_mul_of_pos_left (mul_lt_mul_of_pos_left hn (by linarith)) (by linarith)
    have k2 := (ellipse_poly he0 he1).1
    linarith
  · intro hv
    refine g1.trans ?_
    have k1 : (1 + e / 2) * G ≤ (1 + e / 2) * ((1 + 5 * e) * (1 - 128 / 15 * e)) :=
      mul_le_mul_of_nonneg_left (q2.trans (mul_le_mul_of_nonneg_left hv (by linarith))) (by linarith)
    exact k1.trans (ellipse_poly he0 he1).2

/-- One axis of a point in the ellipse lies within the computed half side of the box. -/
theorem ellipse_half {rd : K → K} (hrd : DoublePrecision rd) {sqrt : K → K} {c s lx ly d u v : K}
    (h : IsRotation c s) (hx : 0 < lx) (hy : 0 < ly) (hd : (c ^ 2 + s ^ 2) * d = c * u + s * v)
    (hF : (u / (lx / 2)) ^ 2 + (v / (ly / 2)) ^ 2 ≤ 2) {x : K} (hxx : x = rd (rd (rd (c * lx) ^ 2) + rd (rd (s * ly) ^ 2)))
    (hs : SqrtNear sqrt x) : |d| ≤ sqrt x := by
  obtain ⟨s0, s1⟩ := hs
  apply abs_le_of_sq_le_sq _ s0
  refine le_trans ?_ s1
  obtain ⟨a, -⟩ := rd_sumsq hrd (c * lx) (s * ly)
  rw [← hxx] at a
  have eu : u = u / (lx / 2) * (lx / 2) := by field_simp
  have ev : v = v / (ly / 2) * (ly / 2) := by field_simp
  generalize u / (lx / 2) = X at *
  generalize v / (ly / 2) = Y at *
  subst eu ev
  have hN := (abs_le.mp h).1
  have hH : 0 ≤ (c * lx) ^ 2 + (s * ly) ^ 2 := by positivity
  have cs : (c * (X * (lx / 2)) + s * (Y * (ly / 2))) ^ 2 ≤ ((c * lx) ^ 2 + (s * ly) ^ 2) / 2 := by
    have e : (c * (X * (lx / 2)) + s * (Y * (ly / 2))) ^ 2 = ((c * lx) * X + (s * ly) * Y) ^ 2 / 4 := by ring
    rw [e]
    have k : ((c * lx) * X + (s * ly) * Y) ^ 2 ≤ ((c * lx) ^ 2 + (s * ly) ^ 2) * (X ^ 2 + Y ^ 2) := by
      nlinarith [sq_nonneg ((c * lx) * Y - (s * ly) * X)]
    have k2 : ((c * lx) ^ 2 + (s * ly) ^ 2) * (X ^ 2 + Y ^ 2) ≤ ((c * lx) ^ 2 + (s * ly) ^ 2) * 2 :=
      mul_le_mul_of_nonneg_left hF hH
    linarith
  rw [← hd, mul_pow] at cs
  have hN2 : (9 : K) / 10 ≤ (c ^ 2 + s ^ 2) ^ 2 := by
    have h1 : (99 : K) / 100 ≤ c ^ 2 + s ^ 2 := by
      have : (1 : K) / 2 ^ 40 ≤ 1 / 100 := by norm_num
      linarith
    nlinarith
  have k3 : 9 / 10 * d ^ 2 ≤ (c ^ 2 + s ^ 2) ^ 2 * d ^ 2 := mul_le_mul_of_nonneg_right hN2 (sq_nonneg d)
  generalize (c * lx) ^ 2 + (s * ly) ^ 2 = H at *
  have k4 : (99 / 100 : K) * H ≤ (1 - 1 / 2 ^ 53) ^ 4 * H := mul_le_mul_of_nonneg_right (by norm_num) hH
  have k5 : (99 / 100 : K) * x ≤ (1 - 1 / 2 ^ 50) * x := by
    apply mul_le_mul_of_nonneg_right (by norm_num)
    linarith [mul_nonneg (show (0 : K) ≤ 99 / 100 by norm_num) hH]
  linarith

end CostMapModel

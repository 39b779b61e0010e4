import Verif.Lemmas.Move
import Verif.Props.Geometry

/-!
# Moving the map: C29 - C32

`move` is the code compiled against grid_map_core 1.5 or later, whose `boundIndexToRange` clamps;
`moveWith wrap1` is the same code with an index bounding function that wraps, which is what the
circular buffer needs. All properties hold for the second; the first agrees with it as long as the
start index does not cross the border of the buffer.
-/

set_option linter.unusedSectionVars false

namespace CostMapModel
open CostMap
variable {K : Type} [Field K] [LinearOrder K] [IsStrictOrderedRing K] [FloorRing K]

/-- The layers `clearRows`/`clearCols` act on all exist. -/
def ClearableOk (m : CostMap K) : Prop := ∀ l ∈ m.basicLayers, m.exists l = true

theorem clearable {m : CostMap K} (hm : m.Coherent) (hb : ClearableOk m) :
    ∀ l ∈ m.layersToClear, m.exists l = true := by
  intro l h
  unfold layersToClear at h
  split at h
  · exact hb l h
  · exact (hm.mem_iff l).mp h

theorem buf_emod {u n s : Int} (hu : 0 ≤ u) (hu' : u < n) (hs : 0 ≤ s) (hs' : s < n) : buf u n s = (u + s) % n := by
  unfold buf
  split
  · rw [Int.emod_eq_of_lt (by omega) (by omega)]
  · have : (u + s) % n = (u + s - n) % n := (Int.sub_emod_right (u + s) n).symm
    rw [this, Int.emod_eq_of_lt (by omega) (by omega)]

theorem buf_shift {u n s t : Int} (hn : 0 < n) (h3 : 0 ≤ u - t) (h4 : u - t < n) :
    buf (u - t) n (wrap1 (s + t) n) = (u + s) % n := by
  have hr := wrap1_range (i := s + t) hn
  rw [buf_emod h3 h4 hr.1 hr.2]
  have : wrap1 (s + t) n = (s + t) % n := rfl
  rw [this, Int.add_emod, Int.emod_emod_of_dvd _ (dvd_refl n), ← Int.add_emod]
  congr 1; ring

theorem drops_of_exposed {u n s t : Int} (hn : 0 < n) (hs : 0 ≤ s) (hs' : s < n) (h3 : 0 ≤ u - t) (h4 : u - t < n)
    (hout : ¬ (0 ≤ u ∧ u < n)) : Drops wrap1 s n t ((u + s) % n) := by
  have hk := Int.emod_nonneg (u + s) (by omega : n ≠ 0)
  have hk' := Int.emod_lt_of_pos (u + s) hn
  rw [drops_wrap hs hs' hk hk', ← emod_sub_eq_unw hk hk' hs hs']
  have : ((u + s) % n - s) % n = u % n := by
    rw [Int.sub_emod, Int.emod_emod_of_dvd _ (dvd_refl n), ← Int.sub_emod]; congr 1; ring
  rw [this]
  rintro ⟨h5, h6⟩
  have e1 := Int.emod_add_mul_ediv u n
  set q := u / n
  have hr := Int.emod_nonneg u (by omega : n ≠ 0)
  have hr' := Int.emod_lt_of_pos u hn
  -- u - t and u % n - t differ by n * q and both lie in [0, n)
  rcases lt_trichotomy q 0 with hq | hq | hq
  · have : n * q ≤ -n := by nlinarith
    omega
  · rw [hq] at e1; simp at e1; omega
  · have : n ≤ n * q := by nlinarith
    omega

theorem not_drops_of_kept {u n s t : Int} (hs : 0 ≤ s) (hs' : s < n) (h1 : 0 ≤ u) (h2 : u < n) (h3 : 0 ≤ u - t)
    (h4 : u - t < n) : ¬ Drops wrap1 s n t ((u + s) % n) := by
  have hn : 0 < n := by omega
  have hk := Int.emod_nonneg (u + s) (by omega : n ≠ 0)
  have hk' := Int.emod_lt_of_pos (u + s) hn
  rw [drops_wrap hs hs' hk hk', not_not, ← emod_sub_eq_unw hk hk' hs hs']
  have : ((u + s) % n - s) % n = u % n := by
    rw [Int.sub_emod, Int.emod_emod_of_dvd _ (dvd_refl n), ← Int.sub_emod]; congr 1; ring
  rw [this, Int.emod_eq_of_lt h1 h2]
  exact ⟨h3, h4⟩

/-- A map moved by a whole number of cells. -/
structure Translated (m m' : CostMap K) (s : Idx) : Prop where
  length : m'.length = m.length
  resolution : m'.resolution = m.resolution
  size : m'.size = m.size
  posx : m'.position.x = m.position.x - m.resolution * (s.x : K)
  posy : m'.position.y = m.position.y - m.resolution * (s.y : K)

theorem Translated.cellU {m m' : CostMap K} {s : Idx} (h : m.Geo) (ht : Translated m m' s) (q : Vec K) :
    m'.cellU q = m.cellU q - s := by
  have hr : m.resolution ≠ 0 := h.res_pos.ne'
  ext
  · simp only [CostMap.cellU, Idx.sub_x, ht.length, ht.resolution, ht.posx]
    rw [← Int.floor_sub_intCast]
    congr 1; field_simp; ring
  · simp only [CostMap.cellU, Idx.sub_y, ht.length, ht.resolution, ht.posy]
    rw [← Int.floor_sub_intCast]
    congr 1; field_simp; ring

theorem covers_iff {m : CostMap K} (h : m.Geo) (q : Vec K) : m.Covers q ↔ (m.cellU q).In m.size := by
  rw [← C11_inside_iff, isInside_iff h]

theorem moved_translated (bnd : Int → Int → Int) {m m0 : CostMap K} {S : String → Idx → Prop} {s : Idx}
    (he : Erases m m0 S) :
    Translated m { m0 with startIndex := bound2 bnd (m.startIndex + s) m.size,
                           position := m.position + positionShift s m.resolution } s := by
  refine ⟨he.shape.geo.length, he.shape.geo.resolution, he.shape.geo.size, ?_, ?_⟩
  · simp only [Vec.add_x, positionShift]; push_cast; ring
  · simp only [Vec.add_y, positionShift]; push_cast; ring

theorem moved_geo {bnd : Int → Int → Int} (hb : ∀ i n, 0 < n → 0 ≤ bnd i n ∧ bnd i n < n) {m m0 : CostMap K}
    (h : m.Geo) {S : String → Idx → Prop} (he : Erases m m0 S) (s : Idx) (p : Vec K) :
    ({ m0 with startIndex := bound2 bnd (m.startIndex + s) m.size, position := p } : CostMap K).Geo := by
  have hg := he.shape.geo' h
  refine ⟨hg.res_pos, hg.size_x, hg.size_y, hg.len_x, hg.len_y, ?_⟩
  have h1 := hb (m.startIndex + s).x m.size.x h.size_x
  have h2 := hb (m.startIndex + s).y m.size.y h.size_y
  show (bound2 bnd (m.startIndex + s) m.size).In m0.size
  rw [he.shape.geo.size]
  exact ⟨h1.1, h1.2, h2.1, h2.2⟩

theorem at_of_start (m : CostMap K) (s : Idx) (p : Vec K) (l : String) (i : Idx) :
    ({ m with startIndex := s, position := p } : CostMap K).at l i = m.at l i := rfl

theorem wrap1_ranges : ∀ i n : Int, 0 < n → 0 ≤ wrap1 i n ∧ wrap1 i n < n := fun _ _ h => wrap1_range h
theorem clamp1_ranges : ∀ i n : Int, 0 < n → 0 ≤ clamp1 i n ∧ clamp1 i n < n := fun _ _ h => clamp1_range h

/-- The buffer index of a position after a wrapping move. -/
theorem moved_index {m m' : CostMap K} {s : Idx} (h : m.Geo) (hg' : m'.Geo) (ht : Translated m m' s)
    (hs : m'.startIndex = bound2 wrap1 (m.startIndex + s) m.size) {q : Vec K} (hq : m'.Covers q) :
    (m'.getIndex q).1 = ⟨((m.cellU q).x + m.startIndex.x) % m.size.x,
      ((m.cellU q).y + m.startIndex.y) % m.size.y⟩ := by
  have hu := (covers_iff hg' q).mp hq
  rw [getIndex_fst hg' ((C11_inside_iff _ _).mpr hq), bufferIdx_eq hu hg'.start]
  rw [ht.cellU h, ht.size] at hu
  rw [ht.cellU h, ht.size, hs]
  obtain ⟨a, b, c, d⟩ := hu
  simp only [Idx.sub_x, Idx.sub_y] at a b c d
  ext
  · exact buf_shift h.size_x a b
  · exact buf_shift h.size_y c d

theorem old_index {m : CostMap K} (h : m.Geo) {q : Vec K} (hq : m.Covers q) :
    (m.getIndex q).1 = ⟨((m.cellU q).x + m.startIndex.x) % m.size.x,
      ((m.cellU q).y + m.startIndex.y) % m.size.y⟩ := by
  have hu := (covers_iff h q).mp hq
  rw [getIndex_fst h ((C11_inside_iff _ _).mpr hq), bufferIdx_eq hu h.start]
  obtain ⟨a, b, c, d⟩ := hu
  obtain ⟨a', b', c', d'⟩ := h.start
  ext
  · exact buf_emod a b a' b'
  · exact buf_emod c d c' d'

theorem atPosition_covered {m : CostMap K} {q : Vec K} (hq : m.Covers q) (l : String) :
    m.atPosition l q = m.at l (m.getIndex q).1 := by
  have : (m.getIndex q).2 = true := (C11_inside_iff _ _).mpr hq
  simp [atPosition, this]

/-- Everything about a wrapping move, in one statement. -/
theorem wrap_move {m : CostMap K} (h : m.Geo) (hm : m.Coherent) (hb : ClearableOk m) (p : Vec K) :
    ∃ m' regs, moveWith wrap1 p m = (.ok (decide (m.shiftTo p ≠ 0), regs), m') ∧ m'.Geo ∧ m'.Coherent ∧
      Translated m m' (m.shiftTo p) ∧ m'.layers = m.layers ∧ SameMeta m m' ∧
      (∀ l q, m.Covers q → m'.Covers q → m'.atPosition l q = m.atPosition l q) ∧
      (∀ l q, l ∈ m.layersToClear → ¬ m.Covers q → m'.Covers q → m'.atPosition l q = .ok NO_INFORMATION) ∧
      (∀ i c, m.getPosition i = some c → ((∃ r ∈ regs, InRegion r i) ↔ ¬ m'.Covers c)) := by
  obtain ⟨m0, m', regs, e, hm', her, hreg⟩ := moveWith_spec wrap1_ranges hm h p (clearable hm hb)
  set s := m.shiftTo p with hs
  have hcoh : m'.Coherent := by
    have := moveWith_coherent wrap1 p m hm
    rw [e] at this; exact this
  have hg' : m'.Geo := by rw [hm']; exact moved_geo wrap1_ranges h her s _
  have ht : Translated m m' s := by rw [hm']; exact moved_translated wrap1 her
  have hst : m'.startIndex = bound2 wrap1 (m.startIndex + s) m.size := by rw [hm']
  have hat : ∀ l i, m'.at l i = m0.at l i := by intro l i; rw [hm']; rfl
  have hexu : ∀ q, m'.Covers q → 0 ≤ (m.cellU q).x - s.x ∧ (m.cellU q).x - s.x < m.size.x ∧
      0 ≤ (m.cellU q).y - s.y ∧ (m.cellU q).y - s.y < m.size.y := by
    intro q hq
    have := (covers_iff hg' q).mp hq
    rw [ht.cellU h, ht.size] at this
    exact this
  obtain ⟨s1, s2, s3, s4⟩ := h.start
  refine ⟨m', regs, e, hg', hcoh, ht, by rw [hm']; exact her.shape.layers, ?_, ?_, ?_, ?_⟩
  · rw [hm']; exact ⟨her.shape.info.frameId, her.shape.info.timestamp, her.shape.info.basicLayers⟩
  · intro l q hq hq'
    rw [atPosition_covered hq, atPosition_covered hq', moved_index h hg' ht hst hq', old_index h hq, hat]
    obtain ⟨a, b, c, d⟩ := hexu q hq'
    obtain ⟨a', b', c', d'⟩ := (covers_iff h q).mp hq
    apply her.kept
    rintro (⟨-, hd⟩ | ⟨-, hd⟩)
    · exact not_drops_of_kept s1 s2 a' b' a b hd
    · exact not_drops_of_kept s3 s4 c' d' c d hd
  · intro l q hl hq hq'
    rw [atPosition_covered hq', hat, moved_index h hg' ht hst hq']
    obtain ⟨a, b, c, d⟩ := hexu q hq'
    refine her.erased _ _ ?_ (clearable hm hb l hl)
      ⟨Int.emod_nonneg _ h.size_x.ne', Int.emod_lt_of_pos _ h.size_x, Int.emod_nonneg _ h.size_y.ne',
        Int.emod_lt_of_pos _ h.size_y⟩
    have : ¬ (m.cellU q).In m.size := fun hh => hq ((covers_iff h q).mpr hh)
    by_cases hx : 0 ≤ (m.cellU q).x ∧ (m.cellU q).x < m.size.x
    · by_cases hy : 0 ≤ (m.cellU q).y ∧ (m.cellU q).y < m.size.y
      · exact absurd ⟨hx.1, hx.2, hy.1, hy.2⟩ this
      · exact Or.inr ⟨Or.inl hl, drops_of_exposed h.size_y s3 s4 c d hy⟩
    · exact Or.inl ⟨Or.inl hl, drops_of_exposed h.size_x s1 s2 a b hx⟩
  · intro i c hc
    have hi : i.In m.size := by
      by_contra hn; rw [getPosition_none hn] at hc; cases hc
    rw [getPosition_eq hi] at hc
    cases hc
    rw [hreg i hi, covers_iff hg', ht.cellU h, cellU_center h, ht.size, unwrapIdx_eq hi h.start]
    obtain ⟨i1, i2, i3, i4⟩ := hi
    rw [drops_wrap s1 s2 i1 i2, drops_wrap s3 s4 i3 i4]
    simp only [Idx.In, Idx.sub_x, Idx.sub_y]
    tauto

/-- While the start index stays in the buffer, clamping and wrapping drop the same cells. -/
theorem dropAxis_clamp_eq_wrap {n : CostMap K} {s : Idx} (hs : n.startIndex.In n.size) (hin : (n.startIndex + s).In n.size)
    (ax : Fin 2) : dropAxis clamp1 s ax n = dropAxis wrap1 s ax n := by
  have h1 : 0 ≤ comp n.startIndex ax ∧ comp n.startIndex ax < comp n.size ax := comp_in hs ax
  have h2 : 0 ≤ comp n.startIndex ax + comp s ax ∧ comp n.startIndex ax + comp s ax < comp n.size ax := by
    obtain ⟨a, b, c, d⟩ := hin
    simp only [Idx.add_x, Idx.add_y] at a b c d
    unfold comp; split <;> exact ⟨by assumption, by assumption⟩
  unfold dropAxis
  extract_lets sh sz sign start stop k idx f1 f2 idx' f1' f2'
  have hi : idx = idx' := by
    simp only [idx, idx']
    have hr : ∀ z, 0 ≤ z → z < sz → clamp1 z sz = wrap1 z sz :=
      fun z z1 z2 => by rw [clamp1_of_in z1 z2, wrap1_of_in z1 z2]
    have hsh : sh = comp s ax := rfl
    have hsz : sz = comp n.size ax := rfl
    by_cases hs : sh > 0
    · have e : sign = 1 := by simp only [sign]; exact if_pos hs
      have es : start = comp n.startIndex ax := by simp only [start, e]; norm_num
      rw [if_pos (by omega)]
      exact hr _ (by omega) (by omega)
    · have e : sign = -1 := by simp only [sign]; exact if_neg hs
      have es : start = comp n.startIndex ax - 1 := by simp only [start, e]; norm_num
      have et : stop = start - sign + sh := rfl
      rw [if_neg (by omega)]
      exact hr _ (by omega) (by omega)
  have hf1 : f1 = f1' := by simp only [f1, f1', hi]
  have hf2 : f2 = f2' := by simp only [f2, f2', hf1]
  rw [hi, hf1, hf2]

theorem bound2_clamp_eq_wrap {i n : Idx} (hin : i.In n) : bound2 clamp1 i n = bound2 wrap1 i n := by
  obtain ⟨a, b, c, d⟩ := hin
  ext
  · simp only [bound2]; rw [clamp1_of_in a b, wrap1_of_in a b]
  · simp only [bound2]; rw [clamp1_of_in c d, wrap1_of_in c d]

/-- While the start index stays in the buffer, `move` as compiled is the wrapping move. -/
theorem move_eq_wrap {m : CostMap K} (h : m.Geo) (p : Vec K)
    (hin : (m.startIndex + m.shiftTo p).In m.size) : move p m = moveWith wrap1 p m := by
  have hax : ∀ (ax : Fin 2) (n : CostMap K), n.size = m.size → n.startIndex = m.startIndex →
      dropAxis clamp1 (m.shiftTo p) ax n = dropAxis wrap1 (m.shiftTo p) ax n := by
    intro ax n e1 e2
    exact dropAxis_clamp_eq_wrap (by rw [e1, e2]; exact h.start) (by rw [e1, e2]; exact hin) ax
  unfold move moveWith
  simp only [Act.bind]
  have hx := hax 0 m rfl rfl
  unfold shiftTo at hx
  rw [hx]
  have hsh := dropAxis_shape wrap1 (indexShift (p - m.position) m.resolution) 0 m
  cases hd : dropAxis wrap1 (indexShift (p - m.position) m.resolution) 0 m with
  | mk r m1 =>
    rw [hd] at hsh
    cases r with
    | ok r0 =>
      simp only
      have hy := hax 1 m1 hsh.geo.size hsh.geo.startIndex
      unfold shiftTo at hy
      rw [hy]
      have hsh2 := dropAxis_shape wrap1 (indexShift (p - m.position) m.resolution) 1 m1
      cases hd2 : dropAxis wrap1 (indexShift (p - m.position) m.resolution) 1 m1 with
      | mk r' m2 =>
        rw [hd2] at hsh2
        cases r' with
        | ok r1 =>
          simp only
          have e1 : m2.size = m.size := hsh2.geo.size.trans hsh.geo.size
          have e2 : m2.startIndex = m.startIndex := hsh2.geo.startIndex.trans hsh.geo.startIndex
          have : bound2 clamp1 (m2.startIndex + indexShift (p - m.position) m.resolution) m2.size =
              bound2 wrap1 (m2.startIndex + indexShift (p - m.position) m.resolution) m2.size := by
            rw [e1, e2]
            exact bound2_clamp_eq_wrap hin
          rw [this]
        | thrown e => rfl
        | assertFail => rfl
        | ub => rfl
        | outOfFuel => rfl
    | thrown e => rfl
    | assertFail => rfl
    | ub => rfl
    | outOfFuel => rfl

/-- A move by at least the size of the map leaves nothing behind, whatever the index bounding function. -/
theorem far_move {bnd : Int → Int → Int} (hbnd : ∀ i n, 0 < n → 0 ≤ bnd i n ∧ bnd i n < n) {m : CostMap K}
    (h : m.Geo) (hm : m.Coherent) (hb : ClearableOk m) (p : Vec K)
    (hfar : m.size.x ≤ |(m.shiftTo p).x| ∨ m.size.y ≤ |(m.shiftTo p).y|) :
    ∃ m' flag, moveWith bnd p m = (.ok flag, m') ∧ (∀ q, ¬ (m.Covers q ∧ m'.Covers q)) ∧
      ∀ l q, m.exists l = true → m'.Covers q → m'.atPosition l q = .ok NO_INFORMATION := by
  obtain ⟨m0, m', regs, e, hm', her, hreg⟩ := moveWith_spec hbnd hm h p (clearable hm hb)
  have hg' : m'.Geo := by rw [hm']; exact moved_geo hbnd h her _ _
  have ht : Translated m m' (m.shiftTo p) := by rw [hm']; exact moved_translated bnd her
  have hsx := h.size_x
  have hsy := h.size_y
  refine ⟨m', _, e, ?_, ?_⟩
  · rintro q ⟨hq, hq'⟩
    obtain ⟨a, b, c, d⟩ := (covers_iff h q).mp hq
    have := (covers_iff hg' q).mp hq'
    rw [ht.cellU h, ht.size] at this
    obtain ⟨a', b', c', d'⟩ := this
    simp only [Idx.sub_x, Idx.sub_y] at a' b' c' d'
    rcases hfar with hf | hf
    · rcases abs_cases (m.shiftTo p).x with ⟨e, _⟩ | ⟨e, _⟩ <;> omega
    · rcases abs_cases (m.shiftTo p).y with ⟨e, _⟩ | ⟨e, _⟩ <;> omega
  · intro l q hl hq
    have hin : (m'.getIndex q).1.In m.size := by
      have h1 := (covers_iff hg' q).mp hq
      have := bufferIdx_in h1 hg'.start
      rw [getIndex_fst hg' ((C11_inside_iff _ _).mpr hq)]
      rw [ht.size] at this ⊢
      exact this
    rw [atPosition_covered hq]
    have : m'.at l (m'.getIndex q).1 = m0.at l (m'.getIndex q).1 := by rw [hm']; rfl
    rw [this]
    refine her.erased _ _ ?_ hl hin
    rcases hfar with hf | hf
    · exact Or.inl ⟨Or.inr hf, by intro h0; rw [h0] at hf; simp at hf; omega, Or.inl hf⟩
    · exact Or.inr ⟨Or.inr hf, by intro h0; rw [h0] at hf; simp at hf; omega, Or.inl hf⟩

/-- The moves for which the compiled code works: the start index stays in the buffer, or the whole map is
dropped. -/
def NoSeam (m : CostMap K) (p : Vec K) : Prop :=
  (m.startIndex + indexShift (p - m.position) m.resolution).In m.size ∨
    m.size.x ≤ |(indexShift (p - m.position) m.resolution).x| ∨
    m.size.y ≤ |(indexShift (p - m.position) m.resolution).y|

/-! ## C29 -/

/-- C29, with a wrapping index function (`grid_map::wrapIndexToRange`): every position in the old and the new
extent reads the same cost as before, in every layer. -/
theorem C29_wrapping_move_keeps_data {m : CostMap K} (h : m.Geo) (hm : m.Coherent) (hb : ClearableOk m) (p : Vec K) :
    ∃ m' flag, moveWith wrap1 p m = (.ok flag, m') ∧
      ∀ l q, m.Covers q → m'.Covers q → m'.atPosition l q = m.atPosition l q := by
  obtain ⟨m', regs, e, -, -, -, -, -, h1, -, -⟩ := wrap_move h hm hb p
  exact ⟨m', _, e, h1⟩

/-- C29 (partial: moves that keep the start index inside the buffer, and moves off the old extent; false for the
others, see `C29_false_across_the_seam`). -/
theorem C29_move_keeps_data_partial {m : CostMap K} (h : m.Geo) (hm : m.Coherent) (hb : ClearableOk m) (p : Vec K)
    (hs : NoSeam m p) :
    ∃ m' flag, move p m = (.ok flag, m') ∧
      ∀ l q, m.Covers q → m'.Covers q → m'.atPosition l q = m.atPosition l q := by
  rcases hs with hs | hs
  · rw [move_eq_wrap h p hs]
    exact C29_wrapping_move_keeps_data h hm hb p
  · obtain ⟨m', flag, e, h1, -⟩ := far_move clamp1_ranges h hm hb p hs
    exact ⟨m', flag, e, fun l q a b => absurd ⟨a, b⟩ (h1 q)⟩

/-- D1. C29 is false of the code: moving a fresh map by one cell upwards in x changes the cost read at a position that is
inside the map before and after. -/
theorem C29_false_across_the_seam :
    ∃ m' flag, move ⟨3 / 2, -1⟩ Demo.base = (.ok flag, m') ∧ Demo.base.Covers ⟨1, -1⟩ ∧ m'.Covers ⟨1, -1⟩ ∧
      Demo.base.atPosition "a" ⟨1, -1⟩ = .ok 22 ∧ m'.atPosition "a" ⟨1, -1⟩ = .ok 32 :=
  ⟨_, (true, [⟨⟨0, 0⟩, ⟨1, 4⟩, .undefined⟩]), Prod.ext (by decide +kernel) rfl,
    (C11_inside_iff _ _).mp (by decide +kernel), (C11_inside_iff _ _).mp (by decide +kernel), by decide +kernel,
    by decide +kernel⟩

example : NoSeam Demo.base ⟨1 / 2, -3 / 2⟩ ∧ ClearableOk Demo.base :=
  ⟨Or.inl (by decide +kernel), by intro l hl; revert l; decide +kernel⟩
example : (moveWith wrap1 ⟨3 / 2, -1⟩ Demo.rotated).2.atPosition "a" ⟨1, -1⟩ = Demo.rotated.atPosition "a" ⟨1, -1⟩ := by
  decide +kernel

/-! ## C30 -/

/-- C30, with a wrapping index function: newly covered positions read `NO_INFORMATION` in every layer that is cleared
(the basic layers, or all layers if there are none), and the reported regions hold exactly the cells
whose old position is no longer covered. -/
theorem C30_wrapping_move_exposes_unknown {m : CostMap K} (h : m.Geo) (hm : m.Coherent) (hb : ClearableOk m) (p : Vec K) :
    ∃ m' flag regs, moveWith wrap1 p m = (.ok (flag, regs), m') ∧
      (∀ l q, (l ∈ m.basicLayers ∨ m.basicLayers = [] ∧ l ∈ m.layers) → ¬ m.Covers q → m'.Covers q →
        m'.atPosition l q = .ok NO_INFORMATION) ∧
      (∀ i c, m.getPosition i = some c → ((∃ r ∈ regs, InRegion r i) ↔ ¬ m'.Covers c)) := by
  obtain ⟨m', regs, e, -, -, -, -, -, -, h2, h3⟩ := wrap_move h hm hb p
  refine ⟨m', _, regs, e, ?_, h3⟩
  intro l q hl hq hq'
  refine h2 l q ?_ hq hq'
  unfold layersToClear
  rcases hl with hl | ⟨h0, hl⟩
  · rw [if_pos (List.length_pos_of_mem hl)]; exact hl
  · simp [h0, hl]

/-- C30 (partial, as C29; false across the seam, see `C30_false_across_the_seam`). -/
theorem C30_move_exposes_unknown_partial {m : CostMap K} (h : m.Geo) (hm : m.Coherent) (hb : ClearableOk m) (p : Vec K)
    (hs : NoSeam m p) :
    ∃ m' flag, move p m = (.ok flag, m') ∧
      ∀ l q, (l ∈ m.basicLayers ∨ m.basicLayers = [] ∧ l ∈ m.layers) → ¬ m.Covers q → m'.Covers q →
        m'.atPosition l q = .ok NO_INFORMATION := by
  rcases hs with hs | hs
  · rw [move_eq_wrap h p hs]
    obtain ⟨m', flag, regs, e, h1, -⟩ := C30_wrapping_move_exposes_unknown h hm hb p
    exact ⟨m', _, e, h1⟩
  · obtain ⟨m', flag, e, -, h1⟩ := far_move clamp1_ranges h hm hb p hs
    refine ⟨m', flag, e, fun l q hl _ hq => h1 l q ?_ hq⟩
    rcases hl with hl | ⟨-, hl⟩
    · exact hb l hl
    · exact (hm.mem_iff l).mp hl

/-- C30, the regions, for moves that keep the start index inside the buffer. -/
theorem C30_regions_partial {m : CostMap K} (h : m.Geo) (hm : m.Coherent) (hb : ClearableOk m) (p : Vec K)
    (hs : (m.startIndex + indexShift (p - m.position) m.resolution).In m.size) :
    ∃ m' flag regs, move p m = (.ok (flag, regs), m') ∧
      ∀ i c, m.getPosition i = some c → ((∃ r ∈ regs, InRegion r i) ↔ ¬ m'.Covers c) := by
  rw [move_eq_wrap h p hs]
  obtain ⟨m', flag, regs, e, -, h1⟩ := C30_wrapping_move_exposes_unknown h hm hb p
  exact ⟨m', flag, regs, e, h1⟩

/-- D1. C30 is false of the code: after moving a moved map by two cells, a position that has just become covered reads a
stale cost. -/
theorem C30_false_across_the_seam :
    ∃ m' flag, move ⟨0, -1⟩ Demo.rotated = (.ok flag, m') ∧ ¬ Demo.rotated.Covers ⟨-1 / 2, -3 / 4⟩ ∧
      m'.Covers ⟨-1 / 2, -3 / 4⟩ ∧ "a" ∈ Demo.rotated.basicLayers ∧
      m'.atPosition "a" ⟨-1 / 2, -3 / 4⟩ = .ok 23 := by
  refine ⟨_, (true, [⟨⟨3, 0⟩, ⟨2, 4⟩, .undefined⟩]), Prod.ext (by decide +kernel) rfl, ?_,
    (C11_inside_iff _ _).mp (by decide +kernel), by decide +kernel, by decide +kernel⟩
  rw [← C11_inside_iff]; decide +kernel

/-! ## C31 -/

theorem axis_round (t : K) :
    |t - ((-(-truncToInt (t + 1 / 2 * (if 0 < t then 1 else -1))) : Int) : K)| ≤ 1 / 2 := by
  rw [neg_neg]
  by_cases ht : 0 < t
  · rw [if_pos ht, mul_one, truncToInt_of_nonneg (by linarith)]
    have h1 := Int.floor_le (t + 1 / 2)
    have h2 := Int.lt_floor_add_one (t + 1 / 2)
    rw [abs_le]; constructor <;> linarith
  · rw [if_neg ht]
    have hn : t + 1 / 2 * (-1) ≤ 0 := by linarith [not_lt.mp ht]
    have e := neg_truncToInt_of_nonpos hn
    have h1 := Int.floor_le (-(t + 1 / 2 * (-1)))
    have h2 := Int.lt_floor_add_one (-(t + 1 / 2 * (-1)))
    rw [← e] at h1 h2
    push_cast at h1 h2
    rw [abs_le]; constructor <;> linarith

/-- C31. `move` succeeds, keeps size, length, resolution, layers and metadata, keeps the start index in the buffer, puts the
centre a whole number of cells from the old one and within half a cell of the requested position, and
returns true exactly when the centre changed. -/
theorem C31_move_translates {m : CostMap K} (h : m.Geo) (hm : m.Coherent) (hb : ClearableOk m) (p : Vec K) :
    ∃ m' flag regs, move p m = (.ok (flag, regs), m') ∧ m'.size = m.size ∧ m'.length = m.length ∧
      m'.resolution = m.resolution ∧ m'.layers = m.layers ∧ SameMeta m m' ∧ m'.startIndex.In m.size ∧
      (∃ a b : Int, m'.position = ⟨m.position.x + a * m.resolution, m.position.y + b * m.resolution⟩) ∧
      |m'.position.x - p.x| ≤ m.resolution / 2 ∧ |m'.position.y - p.y| ≤ m.resolution / 2 ∧
      (flag = true ↔ m'.position ≠ m.position) := by
  obtain ⟨m0, m', regs, e, hm', her, hreg⟩ := moveWith_spec clamp1_ranges hm h p (clearable hm hb)
  have ht : Translated m m' (m.shiftTo p) := by rw [hm']; exact moved_translated clamp1 her
  have hg' : m'.Geo := by rw [hm']; exact moved_geo clamp1_ranges h her _ _
  have hr := h.res_pos
  have haxis : ∀ (a b : K) (s : Int), s = -truncToInt ((b - a) / m.resolution + 1 / 2 *
      (if 0 < (b - a) / m.resolution then 1 else -1)) → |a - m.resolution * (s : K) - b| ≤ m.resolution / 2 := by
    intro a b s hs
    have h1 := axis_round ((b - a) / m.resolution)
    rw [← hs] at h1
    have e : a - m.resolution * (s : K) - b = -(m.resolution * ((b - a) / m.resolution - ((-s : Int) : K))) := by
      push_cast; field_simp; ring
    rw [e, abs_neg, abs_mul, abs_of_pos hr]
    nlinarith
  refine ⟨m', _, regs, e, ht.size, ht.length, ht.resolution, by rw [hm']; exact her.shape.layers, ?_, ?_, ?_, ?_, ?_, ?_⟩
  · rw [hm']; exact ⟨her.shape.info.frameId, her.shape.info.timestamp, her.shape.info.basicLayers⟩
  · have := hg'.start; rw [ht.size] at this; exact this
  · refine ⟨-(m.shiftTo p).x, -(m.shiftTo p).y, ?_⟩
    ext
    · rw [ht.posx]; push_cast; ring
    · rw [ht.posy]; push_cast; ring
  · rw [ht.posx]; exact haxis _ _ _ rfl
  · rw [ht.posy]; exact haxis _ _ _ rfl
  · rw [decide_eq_true_iff]
    constructor
    · intro hne he
      apply hne
      have hx := ht.posx
      have hy := ht.posy
      rw [he] at hx hy
      have h1 : m.resolution * ((m.shiftTo p).x : K) = 0 := by linarith
      have h2 : m.resolution * ((m.shiftTo p).y : K) = 0 := by linarith
      rw [mul_eq_zero] at h1 h2
      have h1 := h1.resolve_left hr.ne'
      have h2 := h2.resolve_left hr.ne'
      exact Idx.ext (by exact_mod_cast h1) (by exact_mod_cast h2)
    · intro hne h0
      apply hne
      ext
      · rw [ht.posx, h0]; simp
      · rw [ht.posy, h0]; simp

/-- D21. A basic layer that does not exist makes `move` throw after it cleared cells, without moving the centre. -/
theorem C31_missing_basic_layer_throws :
    ∃ m', move ⟨1 / 2, -1⟩ (Demo.base.setBasicLayers ["a", "c"]) = (.thrown .outOfRange, m') ∧
      m'.position = Demo.base.position ∧ Demo.base.at "a" ⟨0, 1⟩ = .ok 1 ∧ m'.at "a" ⟨0, 1⟩ = .ok NO_INFORMATION :=
  ⟨_, Prod.ext (by decide +kernel) rfl, by decide +kernel, by decide +kernel, by decide +kernel⟩

example : (move ⟨13 / 10, -1⟩ Demo.base).2.position = ⟨3 / 2, -1⟩ := by decide +kernel

/-! ## C32 -/

/-- The state reached by a history of wrapping moves and writes. -/
structure WorldInv (m0 m : CostMap K) (l : String) : Prop where
  geo : m.Geo
  coherent : m.Coherent
  clearable : ClearableOk m
  clears : l ∈ m.layersToClear
  length : m.length = m0.length
  resolution : m.resolution = m0.resolution
  offset : ∃ s : Idx, ∀ q, m.cellU q = m0.worldCell q - s

theorem coveredAt_iff {m0 m : CostMap K} (h : m.length = m0.length) (q : Vec K) :
    CoveredAt m0 m.position q ↔ m.Covers q := by
  unfold CoveredAt Covers; rw [h]

theorem expected_uncovered {bnd : Int → Int → Int} {m0 : CostMap K} {l : String} {q : Vec K} (es : List (Event K))
    (hn : ¬ CoveredAt m0 (runEvents bnd m0 es).1.position q) :
    expected m0 l q (runEvents bnd m0 es).2 = NO_INFORMATION := by
  cases es with
  | nil => simp only [runEvents] at hn ⊢; simp only [expected, if_neg hn]
  | cons e es =>
    simp only [runEvents] at hn ⊢
    simp only [expected, if_neg hn]

theorem getIndex_eq_iff {m m0 : CostMap K} (h : m.Geo) {s : Idx} (hs : ∀ q, m.cellU q = m0.worldCell q - s)
    {p q : Vec K} (hp : m.Covers p) (hq : m.Covers q) :
    m.getIndex q = m.getIndex p ↔ m0.worldCell p = m0.worldCell q := by
  rw [getIndex_eq h ((C11_inside_iff _ _).mpr hp), getIndex_eq h ((C11_inside_iff _ _).mpr hq)]
  have hup := (covers_iff h p).mp hp
  have huq := (covers_iff h q).mp hq
  constructor
  · intro he
    have he : bufferIdx (m.cellU q) m.size m.startIndex = bufferIdx (m.cellU p) m.size m.startIndex :=
      congrArg Prod.fst he
    have := congrArg (fun i => unwrapIdx i m.size m.startIndex) he
    simp only [unwrap_buffer hup h.start, unwrap_buffer huq h.start] at this
    rw [hs, hs] at this
    have e1 := congrArg Idx.x this
    have e2 := congrArg Idx.y this
    simp only [Idx.sub_x, Idx.sub_y] at e1 e2
    exact Idx.ext (by omega) (by omega)
  · intro he
    rw [hs, hs, he]

/-- Invariant of a history of wrapping moves and writes: reads by position return the expected value. -/
theorem world_inv {m0 : CostMap K} (h : m0.Geo) (hm : m0.Coherent) (hb : ClearableOk m0) {l : String}
    (hl : l ∈ m0.layersToClear) (es : List (Event K)) :
    WorldInv m0 (runEvents wrap1 m0 es).1 l ∧ RunsSafely wrap1 m0 es ∧
      ∀ q, (runEvents wrap1 m0 es).1.Covers q →
        (runEvents wrap1 m0 es).1.atPosition l q = .ok (expected m0 l q (runEvents wrap1 m0 es).2) := by
  induction es with
  | nil =>
    refine ⟨⟨h, hm, hb, hl, rfl, rfl, 0, fun q => ?_⟩, trivial, ?_⟩
    · ext <;> simp [runEvents, cellU, worldCell]
    · intro q hq
      simp only [runEvents] at hq ⊢
      have hc := (coveredAt_iff (m0 := m0) rfl q).mpr hq
      simp only [expected, if_pos hc]
      have hex := clearable hm hb l hl
      rcases (C13_read_throws_iff h hm l q).2 with ht | ⟨c, hc⟩
      · rcases (C13_read_throws_iff h hm l q).1.mp ht with hh | hh
        · exact absurd hq hh
        · rw [hex] at hh; cases hh
      · rw [hc]
  | cons e es ih =>
    obtain ⟨inv, safe, rd⟩ := ih
    set m := (runEvents wrap1 m0 es).1 with hmdef
    set tr := (runEvents wrap1 m0 es).2 with htr
    have hrun : runEvents wrap1 m0 (e :: es) = ((e.act wrap1 m).2, (e, (e.act wrap1 m).2.position) :: tr) := rfl
    rw [hrun]
    simp only [RunsSafely]
    rw [← hmdef]
    obtain ⟨s, hs⟩ := inv.offset
    cases e with
    | moveTo p =>
      obtain ⟨m', regs, e, hg', hc', ht, hlay, hmeta, h1, h2, -⟩ := wrap_move inv.geo inv.coherent inv.clearable p
      have hact : Event.act wrap1 (.moveTo p) m = (.ok (), m') := by
        simp only [Event.act, Act.bind, e, Act.pure]
      rw [hact]
      simp only
      have hex : ∀ l, m'.exists l = m.exists l := by
        intro l
        have i1 := hc'.mem_iff l
        have i2 := inv.coherent.mem_iff l
        rw [hlay] at i1
        unfold CostMap.exists
        rw [Bool.eq_iff_iff]
        exact i1.symm.trans i2
      have hlc : m'.layersToClear = m.layersToClear := by
        unfold layersToClear; rw [hmeta.basicLayers, hlay]
      refine ⟨⟨hg', hc', ?_, by rw [hlc]; exact inv.clears, ht.length.trans inv.length,
        ht.resolution.trans inv.resolution, s + m.shiftTo p, ?_⟩, ⟨safe, Or.inl trivial⟩, ?_⟩
      · intro l hl
        rw [hmeta.basicLayers] at hl
        rw [hex]; exact inv.clearable l hl
      · intro q
        rw [ht.cellU inv.geo, hs]
        ext <;> simp <;> ring
      · intro q hq
        have hcov := (coveredAt_iff (m0 := m0) (ht.length.trans inv.length) q).mpr hq
        simp only [expected, if_pos hcov]
        by_cases hq0 : m.Covers q
        · rw [h1 l q hq0 hq, rd q hq0]
        · rw [h2 l q inv.clears hq0 hq]
          rw [htr, expected_uncovered es]
          rw [← hmdef, coveredAt_iff inv.length]; exact hq0
    | write l' p v =>
      simp only [Event.act]
      by_cases hp : m.Covers p
      · by_cases hl' : m.exists l' = true
        · obtain ⟨m', e, hg', hc', hsg, h1, h2⟩ := C13_write_by_position inv.geo inv.coherent hl' hp v
          have hsh := setAtPosition_shape l' p v m
          rw [e] at hsh ⊢
          simp only at hsh ⊢
          refine ⟨⟨hg', hc', ?_, by rw [layersToClear_congr hsh]; exact inv.clears, hsg.length.trans inv.length,
            hsg.resolution.trans inv.resolution, s, ?_⟩, ⟨safe, Or.inl trivial⟩, ?_⟩
          · intro l hl
            rw [hsh.info.basicLayers] at hl
            have := inv.clearable l hl
            unfold CostMap.exists at this ⊢
            rw [hsh.isSome]; exact this
          · intro q
            rw [← hs]
            simp only [cellU, hsg.length, hsg.resolution, hsg.position]
          · intro q hq
            have hcq := (coveredAt_iff (m0 := m0) (hsg.length.trans inv.length) q).mpr hq
            have hcp : CoveredAt m0 m'.position p := by
              rw [hsg.position]; exact (coveredAt_iff inv.length p).mpr hp
            have hq0 : m.Covers q := by
              unfold Covers at hq ⊢; rw [hsg.position, hsg.length] at hq; exact hq
            simp only [expected, if_pos hcq]
            by_cases hc : l' = l ∧ CoveredAt m0 m'.position p ∧ m0.worldCell p = m0.worldCell q
            · rw [if_pos hc]
              obtain ⟨rfl, -, hw⟩ := hc
              exact h1 q hq0 ((getIndex_eq_iff inv.geo hs hp hq0).mpr hw)
            · rw [if_neg hc, h2 l q, rd q hq0]
              rintro ⟨rfl, -, hgi⟩
              exact hc ⟨rfl, hcp, (getIndex_eq_iff inv.geo hs hp hq0).mp hgi⟩
        · have hl'' : m.exists l' = false := by simpa using hl'
          have e : setAtPosition l' p v m = (.thrown .outOfRange, m) := by
            have h2 : (m.getIndex p).2 = true := (C11_containing_cell inv.geo p).1.mpr hp
            simp [setAtPosition, h2, setAt, exists_false_iff.mp hl'']
          rw [e]
          refine ⟨inv, ⟨safe, Or.inr rfl⟩, ?_⟩
          intro q hq
          have hcq := (coveredAt_iff inv.length q).mpr hq
          have hne : l' ≠ l := by
            rintro rfl
            rw [clearable inv.coherent inv.clearable _ inv.clears] at hl''; cases hl''
          simp only [expected, if_pos hcq, hne, false_and, if_false]
          exact rd q hq
      · have e := C13_write_outside inv.geo l' hp v
        rw [e]
        refine ⟨inv, ⟨safe, Or.inr rfl⟩, ?_⟩
        intro q hq
        have hcq := (coveredAt_iff inv.length q).mpr hq
        have hcp : ¬ CoveredAt m0 m.position p := fun hh => hp ((coveredAt_iff inv.length p).mp hh)
        simp only [expected, if_pos hcq, hcp, false_and, and_false, if_false]
        exact rd q hq

/-- C32, with a wrapping index function: after every history of moves and writes, none of which ends in undefined
behaviour, every read of a cleared layer by position returns the last value written to that world cell
since it last left the map, or `NO_INFORMATION`. -/
theorem C32_wrapping_history_is_world_grid {m0 : CostMap K} (h : m0.Geo) (hm : m0.Coherent) (hb : ClearableOk m0)
    {l : String} (hl : l ∈ m0.basicLayers ∨ m0.basicLayers = [] ∧ l ∈ m0.layers) (es : List (Event K)) :
    RunsSafely wrap1 m0 es ∧
      ∀ q, (runEvents wrap1 m0 es).1.Covers q →
        (runEvents wrap1 m0 es).1.atPosition l q = .ok (expected m0 l q (runEvents wrap1 m0 es).2) := by
  have hl' : l ∈ m0.layersToClear := by
    unfold layersToClear
    rcases hl with hl | ⟨h0, hl⟩
    · rw [if_pos (List.length_pos_of_mem hl)]; exact hl
    · simp [h0, hl]
  exact (world_inv h hm hb hl' es).2

/-- Every move of a history keeps the start index inside the buffer. -/
def SeamlessHistory (m0 : CostMap K) : List (Event K) → Prop
  | [] => True
  | .write _ _ _ :: es => SeamlessHistory m0 es
  | .moveTo p :: es => SeamlessHistory m0 es ∧
    ((runEvents clamp1 m0 es).1.startIndex +
      indexShift (p - (runEvents clamp1 m0 es).1.position) (runEvents clamp1 m0 es).1.resolution).In
      (runEvents clamp1 m0 es).1.size

theorem run_seamless {m0 : CostMap K} (h : m0.Geo) (hm : m0.Coherent) (hb : ClearableOk m0) {l : String}
    (hl : l ∈ m0.layersToClear) (es : List (Event K)) (hs : SeamlessHistory m0 es) :
    runEvents clamp1 m0 es = runEvents wrap1 m0 es ∧ (RunsSafely clamp1 m0 es ↔ RunsSafely wrap1 m0 es) := by
  induction es with
  | nil => exact ⟨rfl, Iff.rfl⟩
  | cons e es ih =>
    have inv := (world_inv h hm hb hl es).1
    cases e with
    | write l' p v =>
      obtain ⟨h1, h2⟩ := ih hs
      simp only [runEvents, RunsSafely, h1, h2, Event.act]
      exact ⟨trivial, trivial⟩
    | moveTo p =>
      obtain ⟨h1, h2⟩ := ih hs.1
      have hin := hs.2
      rw [h1] at hin
      have hmv := move_eq_wrap inv.geo p hin
      unfold move at hmv
      simp only [runEvents, RunsSafely, h1, h2, Event.act, Act.bind, hmv]
      exact ⟨trivial, trivial⟩

/-- C32 (partial: histories whose moves keep the start index inside the buffer; false otherwise, see
`C32_false_across_the_seam`). -/
theorem C32_history_is_world_grid_partial {m0 : CostMap K} (h : m0.Geo) (hm : m0.Coherent) (hb : ClearableOk m0)
    {l : String} (hl : l ∈ m0.basicLayers ∨ m0.basicLayers = [] ∧ l ∈ m0.layers) (es : List (Event K))
    (hs : SeamlessHistory m0 es) :
    RunsSafely clamp1 m0 es ∧
      ∀ q, (runEvents clamp1 m0 es).1.Covers q →
        (runEvents clamp1 m0 es).1.atPosition l q = .ok (expected m0 l q (runEvents clamp1 m0 es).2) := by
  have hl' : l ∈ m0.layersToClear := by
    unfold layersToClear
    rcases hl with hl | ⟨h0, hl⟩
    · rw [if_pos (List.length_pos_of_mem hl)]; exact hl
    · simp [h0, hl]
  obtain ⟨h1, h2⟩ := run_seamless h hm hb hl' es hs
  rw [h2, h1]
  exact C32_wrapping_history_is_world_grid h hm hb hl es

/-- D1. C32 is false of the code: write a cost, move up by one cell, read at the same position. -/
theorem C32_false_across_the_seam :
    let es : List (Event ℚ) := [.moveTo ⟨3 / 2, -1⟩, .write "a" ⟨1, -1⟩ 99]
    (runEvents clamp1 Demo.base es).1.Covers ⟨1, -1⟩ ∧
      expected Demo.base "a" ⟨1, -1⟩ (runEvents clamp1 Demo.base es).2 = 99 ∧
      (runEvents clamp1 Demo.base es).1.atPosition "a" ⟨1, -1⟩ = .ok 32 :=
  ⟨(C11_inside_iff _ _).mp (by decide +kernel), by decide +kernel, by decide +kernel⟩

example :
    let es : List (Event ℚ) := [.moveTo ⟨1, -1⟩, .moveTo ⟨1 / 2, -3 / 2⟩, .write "a" ⟨1, -1⟩ 99, .write "a" ⟨2, -1⟩ 5]
    SeamlessHistory Demo.base es ∧
      (runEvents clamp1 Demo.base es).1.atPosition "a" ⟨1, -1⟩ = .ok 99 ∧
      (runEvents clamp1 Demo.base es).1.atPosition "a" ⟨2, -1⟩ = .ok NO_INFORMATION ∧
      expected Demo.base "a" ⟨2, -1⟩ (runEvents clamp1 Demo.base es).2 = NO_INFORMATION :=
  ⟨⟨⟨trivial, by decide +kernel⟩, by decide +kernel⟩, by decide +kernel, by decide +kernel, by decide +kernel⟩

end CostMapModel

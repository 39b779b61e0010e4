import Verif.Props.Move

/-!
# Moving the map: exactly which moves work (C29, C30)

`C29_move_keeps_data_partial` and `C30_move_exposes_unknown_partial` prove two properties of `move` under a condition on
the move. Here the conditions are shown to be the best possible: for a given map shape and target, C29 holds whatever the
costs are if and only if `NoSeam`, and C30 holds whatever the costs are if and only if `NoOverrun`.
-/

set_option linter.unusedSectionVars false

namespace CostMapModel
open CostMap
variable {K : Type} [Field K] [LinearOrder K] [IsStrictOrderedRing K] [FloorRing K]

/-- The moves that never leave stale costs in freshly covered cells: the start index does not run past the upper end of
the buffer, or the whole map is dropped. -/
def NoOverrun (m : CostMap K) (p : Vec K) : Prop :=
  ((m.startIndex + indexShift (p - m.position) m.resolution).x < m.size.x ∧
    (m.startIndex + indexShift (p - m.position) m.resolution).y < m.size.y) ∨
    m.size.x ≤ |(indexShift (p - m.position) m.resolution).x| ∨
    m.size.y ≤ |(indexShift (p - m.position) m.resolution).y|

theorem noSeam_iff_shape {m m₀ : CostMap K} (h : SameShape m m₀) (p : Vec K) : NoSeam m₀ p ↔ NoSeam m p := by
  unfold NoSeam
  rw [h.geo.startIndex, h.geo.size, h.geo.position, h.geo.resolution]

/-- Reading a position after a move of the compiled code. -/
theorem clamp_move {m : CostMap K} (h : m.Geo) (hm : m.Coherent) (hb : ClearableOk m) (p : Vec K) :
    ∃ m0 m' regs, move p m = (.ok (decide (m.shiftTo p ≠ 0), regs), m') ∧ m'.Geo ∧
      Translated m m' (m.shiftTo p) ∧
      Erases m m0 (fun l i =>
        ((l ∈ m.layersToClear ∨ m.size.x ≤ |(m.shiftTo p).x|) ∧
          Drops clamp1 m.startIndex.x m.size.x (m.shiftTo p).x i.x) ∨
        ((l ∈ m.layersToClear ∨ m.size.y ≤ |(m.shiftTo p).y|) ∧
          Drops clamp1 m.startIndex.y m.size.y (m.shiftTo p).y i.y)) ∧
      ∀ l q, m'.Covers q → m'.atPosition l q = m0.at l
        ⟨buf ((m.cellU q).x - (m.shiftTo p).x) m.size.x (clamp1 (m.startIndex.x + (m.shiftTo p).x) m.size.x),
         buf ((m.cellU q).y - (m.shiftTo p).y) m.size.y (clamp1 (m.startIndex.y + (m.shiftTo p).y) m.size.y)⟩ := by
  obtain ⟨m0, m', regs, e, rfl, er, -⟩ := moveWith_spec clamp1_ranges hm h p (clearable hm hb)
  have ht := moved_translated clamp1 (s := m.shiftTo p) er
  have hg := moved_geo clamp1_ranges h er (m.shiftTo p) (m.position + positionShift (m.shiftTo p) m.resolution)
  refine ⟨m0, _, regs, e, hg, ht, er, fun l q hq => ?_⟩
  have hu := (covers_iff hg q).mp hq
  rw [atPosition_covered hq, at_of_start, getIndex_fst hg ((C11_inside_iff _ _).mpr hq), bufferIdx_eq hu hg.start,
    ht.cellU h, ht.size]
  rfl

/-- A map of the same shape whose layer `l` is free but for one cell. -/
def singleCell (m : CostMap K) (l : String) (b : Idx) (v : Cost) : CostMap K :=
  m.setData l ((Mat.const m.size.x.toNat m.size.y.toNat 0).set b.x b.y v)

theorem singleCell_shape {m : CostMap K} (hm : m.Coherent) {l : String} (hl : m.exists l = true) (b : Idx) (v : Cost) :
    SameShape m (singleCell m l b v) := by
  obtain ⟨a, ha⟩ := Option.isSome_iff_exists.mp hl
  have hd := hm.dims l a ha
  refine SameShape.setData ha ?_ ?_
  · show m.size.x.toNat = a.rows; omega
  · show m.size.y.toNat = a.cols; omega

theorem singleCell_at {m : CostMap K} {l : String} {b i : Idx} {v : Cost} (hi : i.In m.size) :
    (singleCell m l b v).at l i = .ok (if i = b then v else 0) := by
  obtain ⟨h1, h2, h3, h4⟩ := hi
  have hc : (Mat.const m.size.x.toNat m.size.y.toNat (0 : Cost)).get? i.x i.y = some 0 := by
    rw [Mat.get?_const, if_pos]; omega
  rw [singleCell, at_setData, if_pos rfl, Mat.get?_set]
  by_cases h : i = b
  · subst h; simp [hc, Res.ofOption]
  · have : ¬ (i.x = b.x ∧ i.y = b.y) := fun e => h (Idx.ext e.1 e.2)
    simp [this, h, hc, Res.ofOption]

/-- One axis: across the seam, a retained cell is read from another buffer line. -/
theorem seam_axis {u n s t : Int} (_h1 : 0 ≤ u) (h2 : u < n) (h3 : 0 ≤ u - t) (h4 : u - t < n)
    (hs : 0 ≤ s) (hs' : s < n) (hx : ¬ (0 ≤ s + t ∧ s + t < n)) :
    buf (u - t) n (clamp1 (s + t) n) ≠ buf u n s := by
  unfold buf clamp1
  split_ifs <;> omega

theorem buf_range {u n s : Int} (h1 : 0 ≤ u) (h2 : u < n) (hs : 0 ≤ s) (hs' : s < n) :
    0 ≤ buf u n s ∧ buf u n s < n := by
  unfold buf; split <;> omega

/-! ## C29 -/

/-- C29, exactly: whatever the costs of the map are, `move p` keeps the cost of every position covered before and after
if and only if the start index stays in the buffer or the whole map is dropped. -/
theorem C29_data_kept_iff {m : CostMap K} (h : m.Geo) (hm : m.Coherent) (hb : ClearableOk m) (hne : m.layers ≠ [])
    (p : Vec K) :
    (∀ m₀, SameShape m m₀ → ∀ flag m', move p m₀ = (.ok flag, m') →
      ∀ l q, m₀.Covers q → m'.Covers q → m'.atPosition l q = m₀.atPosition l q) ↔ NoSeam m p := by
  constructor
  · intro H
    by_contra hn
    unfold NoSeam at hn
    push Not at hn
    obtain ⟨hseam, hx, hy⟩ := hn
    obtain ⟨l, hl⟩ := List.exists_mem_of_ne_nil _ hne
    have hl := (hm.mem_iff l).mp hl
    obtain ⟨s, hs⟩ : ∃ s, s = m.shiftTo p := ⟨_, rfl⟩
    have hs0 : indexShift (p - m.position) m.resolution = s := hs.symm
    rw [hs0] at hseam hx hy
    obtain ⟨hsx, hsx', hsy, hsy'⟩ := h.start
    have hx' := abs_lt.mp hx
    have hy' := abs_lt.mp hy
    obtain ⟨u, hu⟩ : ∃ u : Idx, u = ⟨max 0 s.x, max 0 s.y⟩ := ⟨_, rfl⟩
    have ux : u.x = max 0 s.x := by rw [hu]
    have uy : u.y = max 0 s.y := by rw [hu]
    have a1 : 0 ≤ u.x ∧ u.x < m.size.x ∧ 0 ≤ u.x - s.x ∧ u.x - s.x < m.size.x := by omega
    have a2 : 0 ≤ u.y ∧ u.y < m.size.y ∧ 0 ≤ u.y - s.y ∧ u.y - s.y < m.size.y := by omega
    have huin : u.In m.size := ⟨a1.1, a1.2.1, a2.1, a2.2.1⟩
    obtain ⟨b, hbb⟩ : ∃ b, b = bufferIdx u m.size m.startIndex := ⟨_, rfl⟩
    have hbin : b.In m.size := hbb ▸ bufferIdx_in huin h.start
    have hsh := singleCell_shape hm hl b 7
    obtain ⟨m₀, hm₀⟩ : ∃ m₀, m₀ = singleCell m l b 7 := ⟨_, rfl⟩
    rw [← hm₀] at hsh
    have g₀ := hsh.geo' h
    have hb₀ : ClearableOk m₀ := by
      intro l' hl'
      rw [hsh.info.basicLayers] at hl'
      have := hb l' hl'
      unfold CostMap.exists at this ⊢
      rw [hsh.isSome]; exact this
    obtain ⟨mE, m', regs, e, hg', ht, er, hread⟩ := clamp_move g₀ (hsh.coherent hm) hb₀ p
    have hshift : m₀.shiftTo p = s := by
      rw [hs]; unfold shiftTo; rw [hsh.geo.position, hsh.geo.resolution]
    have hcu : ∀ q, m₀.cellU q = m.cellU q := fun q => by
      unfold CostMap.cellU; rw [hsh.geo.position, hsh.geo.resolution, hsh.geo.length]
    rw [hshift] at ht er hread
    have hq : m₀.cellU (m.center u) = u := by rw [hcu, cellU_center h]
    have c0 : m₀.Covers (m.center u) := by
      rw [covers_iff g₀, hq, hsh.geo.size]; exact huin
    have c1 : m'.Covers (m.center u) := by
      rw [covers_iff hg', ht.cellU g₀, hq, ht.size, hsh.geo.size]
      exact ⟨a1.2.2.1, a1.2.2.2, a2.2.2.1, a2.2.2.2⟩
    have key := H m₀ hsh _ _ e l _ c0 c1
    have r0 : m₀.atPosition l (m.center u) = .ok 7 := by
      rw [atPosition_covered c0, getIndex_fst g₀ ((C11_inside_iff _ _).mpr c0), hq, hsh.geo.size, hsh.geo.startIndex,
        ← hbb, hm₀, singleCell_at hbin, if_pos rfl]
    rw [r0, hread l _ c1, hq, hsh.geo.size, hsh.geo.startIndex] at key
    obtain ⟨b', hb'⟩ : ∃ b' : Idx, b' = ⟨buf (u.x - s.x) m.size.x (clamp1 (m.startIndex.x + s.x) m.size.x),
         buf (u.y - s.y) m.size.y (clamp1 (m.startIndex.y + s.y) m.size.y)⟩ := ⟨_, rfl⟩
    rw [← hb'] at key
    have cx := clamp1_ranges (m.startIndex.x + s.x) m.size.x h.size_x
    have cy := clamp1_ranges (m.startIndex.y + s.y) m.size.y h.size_y
    have hb'in : b'.In m.size := by
      have i1 := buf_range a1.2.2.1 a1.2.2.2 cx.1 cx.2
      have i2 := buf_range a2.2.2.1 a2.2.2.2 cy.1 cy.2
      rw [hb']; exact ⟨i1.1, i1.2, i2.1, i2.2⟩
    have hne : b' ≠ b := by
      intro e1
      rw [hb', hbb, bufferIdx_eq huin h.start] at e1
      injection e1 with e1 e2
      by_cases hcase : 0 ≤ m.startIndex.x + s.x ∧ m.startIndex.x + s.x < m.size.x
      · refine seam_axis a2.1 a2.2.1 a2.2.2.1 a2.2.2.2 hsy hsy' (fun hcase' => hseam ?_) e2
        exact ⟨hcase.1, hcase.2, hcase'.1, hcase'.2⟩
      · exact seam_axis a1.1 a1.2.1 a1.2.2.1 a1.2.2.2 hsx hsx' hcase e1
    have hat : m₀.at l b' = .ok 0 := by rw [hm₀, singleCell_at hb'in, if_neg hne]
    by_cases hS : ((l ∈ m₀.layersToClear ∨ m₀.size.x ≤ |s.x|) ∧ Drops clamp1 m₀.startIndex.x m₀.size.x s.x b'.x) ∨
        ((l ∈ m₀.layersToClear ∨ m₀.size.y ≤ |s.y|) ∧ Drops clamp1 m₀.startIndex.y m₀.size.y s.y b'.y)
    · have hex : m₀.exists l = true := by
        unfold CostMap.exists at hl ⊢; rw [hsh.isSome]; exact hl
      rw [er.erased l b' hS hex (by rw [hsh.geo.size]; exact hb'in)] at key
      exact absurd (Res.ok.inj key) (by decide)
    · rw [er.kept l b' hS, hat] at key
      exact absurd (Res.ok.inj key) (by decide)
  · intro hns m₀ hsh flag m' e
    have hb₀ : ClearableOk m₀ := by
      intro l' hl'
      rw [hsh.info.basicLayers] at hl'
      have := hb l' hl'
      unfold CostMap.exists at this ⊢
      rw [hsh.isSome]; exact this
    obtain ⟨m'', flag', e', h1⟩ := C29_move_keeps_data_partial (hsh.geo' h) (hsh.coherent hm) hb₀ p
      ((noSeam_iff_shape hsh p).mpr hns)
    rw [e] at e'
    have : m' = m'' := (Prod.mk.inj e').2
    rw [this]; exact h1

/-! ## C30 -/

/-- One axis: the fresh lines are dropped unless the start index runs past the upper end. -/
theorem fresh_dropped {u n s t : Int} (h3 : 0 ≤ u - t) (h4 : u - t < n) (hs : 0 ≤ s) (hs' : s < n)
    (ht : |t| < n) (ho : s + t < n) (hu : ¬ (0 ≤ u ∧ u < n)) :
    Drops clamp1 s n t (buf (u - t) n (clamp1 (s + t) n)) := by
  have ht' := abs_lt.mp ht
  refine ⟨by omega, Or.inr ?_⟩
  by_cases hp : 0 < t
  · rw [abs_of_pos hp]
    have e : buf (u - t) n (clamp1 (s + t) n) - dropIndex clamp1 s n t = u - n := by
      unfold buf dropIndex clamp1; split_ifs <;> omega
    rw [e, Int.emod_eq_of_lt (by omega) (by omega)]; omega
  · rw [abs_of_nonpos (by omega)]
    have e : buf (u - t) n (clamp1 (s + t) n) - dropIndex clamp1 s n t = u - t := by
      unfold buf dropIndex clamp1; split_ifs <;> omega
    rw [e, Int.emod_eq_of_lt (by omega) (by omega)]; omega

/-- One axis: past the upper end, some fresh line is not dropped. -/
theorem overrun_axis {n s t : Int} (hs : 0 ≤ s) (hs' : s < n) (ht : |t| < n) (ho : n ≤ s + t) :
    ∃ u, 0 ≤ u - t ∧ u - t < n ∧ n ≤ u ∧ ¬ Drops clamp1 s n t (buf (u - t) n (clamp1 (s + t) n)) := by
  have ht' := abs_lt.mp ht
  refine ⟨max (n - t) (s + t - n + 1) + t, by omega, by omega, by omega, ?_⟩
  rintro ⟨-, h | h⟩
  · omega
  rw [abs_of_pos (by omega)] at h
  have e : buf (max (n - t) (s + t - n + 1) + t - t) n (clamp1 (s + t) n) - dropIndex clamp1 s n t
      = max (n - t) (s + t - n + 1) - 1 - s := by
    unfold buf dropIndex clamp1; split_ifs <;> omega
  rw [e] at h
  have : (max (n - t) (s + t - n + 1) - 1 - s) % n = max (n - t) (s + t - n + 1) - 1 - s + n := by
    rw [← Int.add_emod_right, Int.emod_eq_of_lt (by omega) (by omega)]
  rw [this] at h
  omega

/-- One axis: otherwise some line stays. -/
theorem stays_axis {n s t : Int} (hs : 0 ≤ s) (hs' : s < n) (ht : |t| < n) (ho : s + t < n) :
    ∃ u, 0 ≤ u - t ∧ u - t < n ∧ ¬ Drops clamp1 s n t (buf (u - t) n (clamp1 (s + t) n)) := by
  have ht' := abs_lt.mp ht
  refine ⟨max 0 t, by omega, by omega, ?_⟩
  rintro ⟨h0, h | h⟩
  · omega
  by_cases hp : 0 < t
  · rw [abs_of_pos hp] at h
    have e : buf (max 0 t - t) n (clamp1 (s + t) n) - dropIndex clamp1 s n t = t := by
      unfold buf dropIndex clamp1; split_ifs <;> omega
    rw [e, Int.emod_eq_of_lt (by omega) (by omega)] at h; omega
  · rw [abs_of_nonpos (by omega)] at h
    have e : (buf (max 0 t - t) n (clamp1 (s + t) n) - dropIndex clamp1 s n t) % n = -t := by
      have : buf (max 0 t - t) n (clamp1 (s + t) n) - dropIndex clamp1 s n t = -t ∨
          buf (max 0 t - t) n (clamp1 (s + t) n) - dropIndex clamp1 s n t = -t - n := by
        unfold buf dropIndex clamp1; split_ifs <;> omega
      rcases this with e | e
      · rw [e, Int.emod_eq_of_lt (by omega) (by omega)]
      · rw [e, ← Int.add_emod_right, Int.emod_eq_of_lt (by omega) (by omega)]; omega
    rw [e] at h; omega

/-- C30, exactly: whatever the costs of the map are, positions newly covered by `move p` read unknown in the layers to be
cleared if and only if the start index does not run past the upper end of the buffer or the whole map is dropped. -/
theorem C30_exposes_unknown_iff {m : CostMap K} (h : m.Geo) (hm : m.Coherent) (hb : ClearableOk m)
    (hne : m.layers ≠ []) (p : Vec K) :
    (∀ m₀, SameShape m m₀ → ∀ flag m', move p m₀ = (.ok flag, m') →
      ∀ l q, (l ∈ m.basicLayers ∨ m.basicLayers = [] ∧ l ∈ m.layers) → ¬ m₀.Covers q → m'.Covers q →
        m'.atPosition l q = .ok NO_INFORMATION) ↔ NoOverrun m p := by
  have hclr : ∀ l, (l ∈ m.basicLayers ∨ m.basicLayers = [] ∧ l ∈ m.layers) → l ∈ m.layersToClear := by
    intro l hl
    unfold layersToClear
    rcases hl with hl | ⟨h0, hl⟩
    · rw [if_pos (List.length_pos_of_mem hl)]; exact hl
    · simp [h0, hl]
  have hexl : ∀ l, (l ∈ m.basicLayers ∨ m.basicLayers = [] ∧ l ∈ m.layers) → m.exists l = true := by
    rintro l (hl | ⟨-, hl⟩)
    · exact hb l hl
    · exact (hm.mem_iff l).mp hl
  have hb₀ : ∀ m₀, SameShape m m₀ → ClearableOk m₀ := by
    intro m₀ hsh l' hl'
    rw [hsh.info.basicLayers] at hl'
    have := hb l' hl'
    unfold CostMap.exists at this ⊢
    rw [hsh.isSome]; exact this
  obtain ⟨hsx, hsx', hsy, hsy'⟩ := h.start
  obtain ⟨s, hs⟩ : ∃ s, s = m.shiftTo p := ⟨_, rfl⟩
  have hs0 : indexShift (p - m.position) m.resolution = s := hs.symm
  constructor
  · intro H
    by_contra hn
    unfold NoOverrun at hn
    push Not at hn
    rw [hs0] at hn
    obtain ⟨hov, hx, hy⟩ := hn
    obtain ⟨l, hl⟩ : ∃ l, (l ∈ m.basicLayers ∨ m.basicLayers = [] ∧ l ∈ m.layers) := by
      by_cases h0 : m.basicLayers = []
      · obtain ⟨l, hl⟩ := List.exists_mem_of_ne_nil _ hne
        exact ⟨l, Or.inr ⟨h0, hl⟩⟩
      · obtain ⟨l, hl⟩ := List.exists_mem_of_ne_nil _ h0
        exact ⟨l, Or.inl hl⟩
    obtain ⟨u, k1, k2, k3, k4, kout, d1, d2⟩ : ∃ u : Idx, 0 ≤ u.x - s.x ∧ u.x - s.x < m.size.x ∧ 0 ≤ u.y - s.y ∧
        u.y - s.y < m.size.y ∧ ¬ u.In m.size ∧
        ¬ Drops clamp1 m.startIndex.x m.size.x s.x (buf (u.x - s.x) m.size.x (clamp1 (m.startIndex.x + s.x) m.size.x)) ∧
        ¬ Drops clamp1 m.startIndex.y m.size.y s.y (buf (u.y - s.y) m.size.y (clamp1 (m.startIndex.y + s.y) m.size.y)) := by
      by_cases ox : m.size.x ≤ m.startIndex.x + s.x
      · obtain ⟨ux, a1, a2, a3, a4⟩ := overrun_axis hsx hsx' hx ox
        by_cases oy : m.size.y ≤ m.startIndex.y + s.y
        · obtain ⟨uy, b1, b2, -, b4⟩ := overrun_axis hsy hsy' hy oy
          exact ⟨⟨ux, uy⟩, a1, a2, b1, b2, fun hin => not_lt.mpr a3 hin.2.1, a4, b4⟩
        · obtain ⟨uy, b1, b2, b4⟩ := stays_axis hsy hsy' hy (not_le.mp oy)
          exact ⟨⟨ux, uy⟩, a1, a2, b1, b2, fun hin => not_lt.mpr a3 hin.2.1, a4, b4⟩
      · have oy : m.size.y ≤ m.startIndex.y + s.y := hov (not_le.mp ox)
        obtain ⟨ux, a1, a2, a4⟩ := stays_axis hsx hsx' hx (not_le.mp ox)
        obtain ⟨uy, b1, b2, b3, b4⟩ := overrun_axis hsy hsy' hy oy
        exact ⟨⟨ux, uy⟩, a1, a2, b1, b2, fun hin => not_lt.mpr b3 hin.2.2.2, a4, b4⟩
    have hsh := singleCell_shape hm (hexl l hl) 0 0
    obtain ⟨m₀, hm₀⟩ : ∃ m₀, m₀ = singleCell m l 0 0 := ⟨_, rfl⟩
    rw [← hm₀] at hsh
    have g₀ := hsh.geo' h
    obtain ⟨mE, m', regs, e, hg', ht, er, hread⟩ := clamp_move g₀ (hsh.coherent hm) (hb₀ m₀ hsh) p
    have hshift : m₀.shiftTo p = s := by
      rw [hs]; unfold shiftTo; rw [hsh.geo.position, hsh.geo.resolution]
    have hcu : ∀ q, m₀.cellU q = m.cellU q := fun q => by
      unfold CostMap.cellU; rw [hsh.geo.position, hsh.geo.resolution, hsh.geo.length]
    rw [hshift] at ht er hread
    have hq : m₀.cellU (m.center u) = u := by rw [hcu, cellU_center h]
    have c0 : ¬ m₀.Covers (m.center u) := by
      rw [covers_iff g₀, hq, hsh.geo.size]; exact kout
    have c1 : m'.Covers (m.center u) := by
      rw [covers_iff hg', ht.cellU g₀, hq, ht.size, hsh.geo.size]
      exact ⟨k1, k2, k3, k4⟩
    have key := H m₀ hsh _ _ e l _ hl c0 c1
    rw [hread l _ c1, hq, hsh.geo.size, hsh.geo.startIndex] at key
    rw [er.kept] at key
    · have cx := clamp1_ranges (m.startIndex.x + s.x) m.size.x h.size_x
      have cy := clamp1_ranges (m.startIndex.y + s.y) m.size.y h.size_y
      have i1 := buf_range k1 k2 cx.1 cx.2
      have i2 := buf_range k3 k4 cy.1 cy.2
      rw [hm₀, singleCell_at ⟨i1.1, i1.2, i2.1, i2.2⟩] at key
      simp only [ite_self] at key
      exact absurd (Res.ok.inj key) (by decide)
    · rw [hsh.geo.size, hsh.geo.startIndex]
      rintro (⟨-, hd⟩ | ⟨-, hd⟩)
      · exact d1 hd
      · exact d2 hd
  · intro hno m₀ hsh flag m' e l q hl hq hq'
    have g₀ := hsh.geo' h
    have hex : m₀.exists l = true := by
      have := hexl l hl
      unfold CostMap.exists at this ⊢; rw [hsh.isSome]; exact this
    unfold NoOverrun at hno
    rw [hs0] at hno
    by_cases hfar : m.size.x ≤ |s.x| ∨ m.size.y ≤ |s.y|
    · have hfar' : m₀.size.x ≤ |(indexShift (p - m₀.position) m₀.resolution).x| ∨
          m₀.size.y ≤ |(indexShift (p - m₀.position) m₀.resolution).y| := by
        rw [hsh.geo.position, hsh.geo.resolution, hsh.geo.size, hs0]; exact hfar
      obtain ⟨m'', flag', e', -, h1⟩ := far_move clamp1_ranges g₀ (hsh.coherent hm) (hb₀ m₀ hsh) p hfar'
      have e'' : move p m₀ = (.ok flag', m'') := e'
      rw [e] at e''
      rw [(Prod.mk.inj e'').2] at hq' ⊢
      exact h1 l q hex hq'
    · have hov := hno.resolve_right hfar
      push Not at hfar
      obtain ⟨mE, m'', regs, e', hg', ht, er, hread⟩ := clamp_move g₀ (hsh.coherent hm) (hb₀ m₀ hsh) p
      rw [e] at e'
      rw [(Prod.mk.inj e').2] at hq' ⊢
      have hshift : m₀.shiftTo p = s := by
        rw [hs]; unfold shiftTo; rw [hsh.geo.position, hsh.geo.resolution]
      rw [hshift] at ht er hread
      have hin := (covers_iff hg' q).mp hq'
      rw [ht.cellU g₀, ht.size, hsh.geo.size] at hin
      obtain ⟨k1, k2, k3, k4⟩ := hin
      simp only [Idx.sub_x, Idx.sub_y] at k1 k2 k3 k4
      have hout := fun hc => hq ((covers_iff g₀ q).mpr hc)
      rw [hsh.geo.size] at hout
      have cx := clamp1_ranges (m.startIndex.x + s.x) m.size.x h.size_x
      have cy := clamp1_ranges (m.startIndex.y + s.y) m.size.y h.size_y
      have i1 := buf_range k1 k2 cx.1 cx.2
      have i2 := buf_range k3 k4 cy.1 cy.2
      rw [hread l q hq', hsh.geo.size, hsh.geo.startIndex]
      have hlc : l ∈ m₀.layersToClear := by rw [layersToClear_congr hsh]; exact hclr l hl
      refine er.erased l _ ?_ hex (by rw [hsh.geo.size]; exact ⟨i1.1, i1.2, i2.1, i2.2⟩)
      rw [hsh.geo.size, hsh.geo.startIndex]
      by_cases hxin : 0 ≤ (m₀.cellU q).x ∧ (m₀.cellU q).x < m.size.x
      · refine Or.inr ⟨Or.inl hlc, fresh_dropped k3 k4 hsy hsy' hfar.2 hov.2 fun hyin => hout ?_⟩
        exact ⟨hxin.1, hxin.2, hyin.1, hyin.2⟩
      · exact Or.inl ⟨Or.inl hlc, fresh_dropped k1 k2 hsx hsx' hfar.1 hov.1 hxin⟩

/-- The hypotheses are met by the sample map, on both sides of the two conditions. -/
example : Demo.base.layers ≠ [] ∧ ClearableOk Demo.base ∧ NoSeam Demo.base ⟨1 / 2, -3 / 2⟩ ∧
    ¬ NoSeam Demo.base ⟨3 / 2, -1⟩ ∧ NoOverrun Demo.base ⟨3 / 2, -1⟩ ∧ ¬ NoOverrun Demo.rotated ⟨0, -1⟩ :=
  ⟨by decide +kernel, by intro l hl; revert l; decide +kernel, Or.inl (by decide +kernel),
    by unfold NoSeam; decide +kernel, by unfold NoOverrun; decide +kernel, by unfold NoOverrun; decide +kernel⟩

end CostMapModel

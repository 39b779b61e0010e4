import Verif.Props.Merge

/-! # Exactly when `extendToInclude` covers both maps (C35), for maps that stick out by whole cells -/

set_option linter.unusedSectionVars false

namespace CostMapModel
open CostMap
variable {K : Type} [Field K] [LinearOrder K] [IsStrictOrderedRing K] [FloorRing K]

/-- One axis: an interval of the length of the union box of two others contains both of them only if it is the box. -/
theorem box_unique {c l c' l' d L : K} (hL : L = l + over c l c' l' + under c l c' l')
    (h1 : d - L / 2 ≤ c - l / 2) (h2 : c + l / 2 ≤ d + L / 2) (h3 : d - L / 2 ≤ c' - l' / 2)
    (h4 : c' + l' / 2 ≤ d + L / 2) : d = c + (over c l c' l' - under c l c' l') / 2 := by
  have a1 : c + l / 2 + over c l c' l' ≤ d + L / 2 := by
    unfold over
    rcases max_cases (0 : K) ((c' + l' / 2) - (c + l / 2)) with ⟨e, -⟩ | ⟨e, -⟩ <;> rw [e] <;> linarith
  have a2 : d - L / 2 ≤ c - l / 2 - under c l c' l' := by
    unfold under
    rcases max_cases (0 : K) ((c - l / 2) - (c' - l' / 2)) with ⟨e, -⟩ | ⟨e, -⟩ <;> rw [e] <;> linarith
  linarith

/-- One axis: where the new centre is when more and oddly many cells are added below. -/
theorem axis_whole_odd {r c : K} {n a b : Int} (hr : 0 < r) (hn : 0 < n) (ha : 0 ≤ a) (hb : 0 ≤ b)
    (hab : ¬ (b ≤ a ∨ (a + b) % 2 = 0)) :
    roundHalfAway (((n : K) * r + (a : K) * r + (b : K) * r) / r) = n + a + b ∧
    alignAxis r (c + ((a : K) * r - (b : K) * r) / 2) c (n + a + b) n ≠ c + ((a : K) * r - b * r) / 2 := by
  have e1 : ((n : K) * r + (a : K) * r + (b : K) * r) / r = n + a + b := by field_simp
  have e2 : (c + ((a : K) * r - (b : K) * r) / 2 - c) / r = ((a : K) - b) / 2 := by field_simp; ring
  rw [e1, alignAxis_halfCells hr, e2, halfCells_whole n a b hn ha hb, if_pos (by omega)]
  refine ⟨round_whole n a b hn ha hb, fun h => ?_⟩
  push_cast at h
  nlinarith

/-- C35, exactly, for another map that sticks out by whole cells, `a` above and `b` below on each axis: `extendToInclude`
yields a map that covers both if and only if on each axis no more cells are added below than above, or an even number is
added in total. -/
theorem C35_covers_both_iff {m other : CostMap K} (h : m.Geo) (hc : m.Coherent)
    (hb : ∀ l ∈ m.basicLayers, m.exists l = true) (ho : other.Geo) {ax bx ay b_y : ℕ}
    (hax : over m.position.x m.length.x other.position.x other.length.x = ax * m.resolution)
    (hbx : under m.position.x m.length.x other.position.x other.length.x = bx * m.resolution)
    (hay : over m.position.y m.length.y other.position.y other.length.y = ay * m.resolution)
    (hby : under m.position.y m.length.y other.position.y other.length.y = b_y * m.resolution) :
    ∃ m', extendToInclude other m = (.ok true, m') ∧
      (((∀ p, m.Covers p → m'.Covers p) ∧ (∀ p, other.Covers p → m'.Covers p)) ↔
        (bx ≤ ax ∨ (ax + bx) % 2 = 0) ∧ (b_y ≤ ay ∨ (ay + b_y) % 2 = 0)) := by
  by_cases hgood : (bx ≤ ax ∨ (ax + bx) % 2 = 0) ∧ (b_y ≤ ay ∨ (ay + b_y) % 2 = 0)
  · obtain ⟨m', e, -, h1, h2⟩ := C35_covers_both_partial h hc hb hax hbx hay hby hgood.1 hgood.2
    exact ⟨m', e, iff_of_true ⟨h1, h2⟩ hgood⟩
  obtain ⟨m', e, hg', -, -, -, hres, hsz, hpos, -, -⟩ := extend_spec h hc hb other
  refine ⟨m', e, iff_of_false ?_ hgood⟩
  rintro ⟨h1, h2⟩
  obtain ⟨p1, p2⟩ := Geo.length_pos h
  obtain ⟨q1, q2⟩ := Geo.length_pos ho
  obtain ⟨⟨a1, a2⟩, a3, a4⟩ := (covers_subset_iff p1 p2).mp h1
  obtain ⟨⟨b1, b2⟩, b3, b4⟩ := (covers_subset_iff q1 q2).mp h2
  have hround : ∀ (n : Int) (a b : ℕ), 0 < n →
      roundHalfAway (((n : K) * m.resolution + (a : K) * m.resolution + (b : K) * m.resolution) / m.resolution)
        = n + a + b := by
    intro n a b hn
    have e1 : ((n : K) * m.resolution + (a : K) * m.resolution + (b : K) * m.resolution) / m.resolution = n + a + b := by
      have := h.res_pos.ne'; field_simp
    rw [e1]
    exact_mod_cast round_whole (K := K) n a b hn (by omega) (by omega)
  have hsx : m'.size.x = m.size.x + ax + bx := by
    rw [hsz]; simp only [extSize, hax, hbx]; rw [h.len_x]; exact hround _ _ _ h.size_x
  have hsy : m'.size.y = m.size.y + ay + b_y := by
    rw [hsz]; simp only [extSize, hay, hby]; rw [h.len_y]; exact hround _ _ _ h.size_y
  have hlx : m'.length.x = m.length.x + over m.position.x m.length.x other.position.x other.length.x +
      under m.position.x m.length.x other.position.x other.length.x := by
    rw [hg'.len_x, hsx, hres, hax, hbx, h.len_x]; push_cast; ring
  have hly : m'.length.y = m.length.y + over m.position.y m.length.y other.position.y other.length.y +
      under m.position.y m.length.y other.position.y other.length.y := by
    rw [hg'.len_y, hsy, hres, hay, hby, h.len_y]; push_cast; ring
  have kx := box_unique hlx a1 a2 b1 b2
  have ky := box_unique hly a3 a4 b3 b4
  rw [hpos] at kx ky
  simp only [extCenter] at kx ky
  rw [← hsz, hsx, hax, hbx] at kx
  rw [← hsz, hsy, hay, hby] at ky
  by_cases hx : bx ≤ ax ∨ (ax + bx) % 2 = 0
  · have hy : ¬ (b_y ≤ ay ∨ (ay + b_y) % 2 = 0) := fun hy => hgood ⟨hx, hy⟩
    obtain ⟨-, k⟩ := axis_whole_odd (c := m.position.y) (a := ay) (b := b_y) h.res_pos h.size_y (by omega) (by omega)
      (by omega)
    exact k (by simpa using ky)
  · obtain ⟨-, k⟩ := axis_whole_odd (c := m.position.x) (a := ax) (b := bx) h.res_pos h.size_x (by omega) (by omega)
      (by omega)
    exact k (by simpa using kx)

/-- The hypotheses are met with one cell below, where the claim fails. -/
example : ∃ m', extendToInclude (Demo.unit 3 (-2)) (Demo.unit 5 0) = (.ok true, m') ∧
    ¬ ((∀ p, (Demo.unit 5 0).Covers p → m'.Covers p) ∧ (∀ p, (Demo.unit 3 (-2)).Covers p → m'.Covers p)) := by
  obtain ⟨m', e, h⟩ := C35_covers_both_iff (m := Demo.unit 5 0) (other := Demo.unit 3 (-2)) (ax := 0) (bx := 1)
    (ay := 0) (b_y := 0) Demo.unit5_geo (Demo.unit_coherent _ _) (by decide +kernel)
    ⟨by decide +kernel, by decide +kernel, by decide +kernel, by decide +kernel, by decide +kernel, by decide +kernel⟩
    (by decide +kernel) (by decide +kernel) (by decide +kernel) (by decide +kernel)
  exact ⟨m', e, fun hh => absurd (h.mp hh) (by decide)⟩

end CostMapModel

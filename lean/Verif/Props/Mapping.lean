import Verif.Spec.Mapping
import Verif.Props.Accumulate
import Verif.Props.MachineConversions

/-!
# A robot that maps its surroundings: C111
-/

set_option linter.unusedSectionVars false

namespace CostMapModel
open CostMap

theorem Act.forEach_map {σ α β : Type} (f : α → β) (g : β → Act σ Unit) : ∀ (xs : List α) (s : σ),
    Act.forEach g (xs.map f) s = Act.forEach (fun a => g (f a)) xs s
  | [], _ => rfl
  | a :: xs, s => by
    show Act.bind (g (f a)) (fun _ => Act.forEach g (xs.map f)) s = Act.bind (g (f a)) (fun _ => Act.forEach (fun a => g (f a)) xs) s
    unfold Act.bind
    rcases g (f a) s with ⟨r, s'⟩
    cases r <;> try rfl
    exact Act.forEach_map f g xs s'

section
variable {K : Type} [Field K] [LinearOrder K] [IsStrictOrderedRing K] [FloorRing K]

theorem near_cells {r x : K} (hr : 0 < r) {a b : Int} (h1 : |x - a * r| ≤ r / 8) (h2 : |x - b * r| ≤ r / 8) : a = b := by
  rw [abs_le] at h1 h2
  have k1 : ((a : K) - b) * r < 1 * r := by linarith
  have k2 : ((b : K) - a) * r < 1 * r := by linarith
  have c1 : a - b < 1 := by exact_mod_cast lt_of_mul_lt_mul_right k1 hr.le
  have c2 : b - a < 1 := by exact_mod_cast lt_of_mul_lt_mul_right k2 hr.le
  omega

/-- The window of a reading, on the machine. -/
theorem reading_window {w : World K} {F : Fmt K} {rf : K → K} (hrd : DoublePrecision F.rd) (hF : IntsExact F.rd) {u : K}
    (hg : GridExact F.rd u) {m : CostMap K} {s : Reading K} (hs : s.Fits w u m) (l : String) {p : Vec K}
    (hp : s.costmap.robot = some p) :
    ∃ o x0 y0, fromCostmap2DROSAtRobotPoseI F.rd s.costmap
        ⟨s.nx * s.costmap.costmap.resolution, s.ny * s.costmap.costmap.resolution⟩ l (CostMap.new []) = (.ok true, o) ∧
      HeldI w F rf o ∧ o.exists l = true ∧ s.Window (some (x0, y0)) ∧ o.resolution = m.resolution ∧ o.size = ⟨s.nx, s.ny⟩ ∧
      o.startIndex = 0 ∧ o.position = ⟨s.costmap.costmap.origin.x + x0 * m.resolution + s.nx * m.resolution / 2,
        s.costmap.costmap.origin.y + y0 * m.resolution + s.ny * m.resolution / 2⟩ ∧
      ∀ i : Idx, i.In o.size → ∃ (v : Cost) (col row : Nat), (col : Int) = x0 + (s.nx - 1 - i.x) ∧
        (row : Int) = y0 + (s.ny - 1 - i.y) ∧ o.at l i = .ok v ∧ s.costmap.costmap.cell col row = some v := by
  obtain ⟨hpt, hx0, hx1, hy0, hy1⟩ := hs.robot p hp
  obtain ⟨a, b, hab⟩ := hs.grid
  have er := hs.resolution
  have hr : 0 < s.costmap.costmap.resolution := hs.costmap.ok.res
  rw [← er] at hx0 hx1 hy0 hy1
  have nx1 : (1 : K) ≤ s.nx := by exact_mod_cast hs.cells_x
  have ny1 : (1 : K) ≤ s.ny := by exact_mod_cast hs.cells_y
  have qx := mul_le_mul_of_nonneg_right nx1 hr.le
  have qy := mul_le_mul_of_nonneg_right ny1 hr.le
  have cx := hs.costmap.high_x; have cy := hs.costmap.high_y
  have geo : w.Geometry ⟨s.nx * s.costmap.costmap.resolution, s.ny * s.costmap.costmap.resolution⟩ s.costmap.costmap.resolution p :=
    ⟨hs.costmap.cell, by dsimp only; linarith, by dsimp only; linarith, by dsimp only; linarith, by dsimp only; linarith, hpt⟩
  obtain ⟨o, e, hc, g, f1, f2, f3, f4, f5, f6, f7, f8, x0, y0, hx, hy, hpos, hv⟩ := window_exact_run hrd hF hg hs.costmap.ok hab hp
    hs.cells_x hs.cells_y hx0 hx1 hy0 hy1 (new_coherent (K := K) (ls := []) (by simp)) l
  have e' := (windowI_world hrd hs.costmap hp geo l (CostMap.new [])).trans e
  have hB : w.size ≤ 2 ^ 23 * s.costmap.costmap.resolution := w.cells.trans (by have := hs.costmap.cell; nlinarith)
  have tol : ∀ {q c d : K}, |d - q| ≤ o.resolution / 2 + (|q| + |c| + o.resolution) / 2 ^ 48 → |q| ≤ w.size → |c| ≤ w.size →
      |d - q| ≤ (1 / 2 + 1 / 2 ^ 20) * s.costmap.costmap.resolution := by
    intro q c d h1 h2 h3
    rw [f3] at h1
    have : (|q| + |c| + s.costmap.costmap.resolution) / 2 ^ 48 ≤ 1 / 2 ^ 20 * s.costmap.costmap.resolution := by
      rw [div_le_iff₀ (by norm_num)]
      have : 1 / 2 ^ 20 * s.costmap.costmap.resolution * 2 ^ 48 = 2 ^ 28 * s.costmap.costmap.resolution := by ring
      rw [this]
      linarith
    linarith
  refine ⟨o, x0, y0, e', ?_, ?_, ⟨p, hp, by omega, by omega, ?_, ?_⟩, f3.trans er, f4, f5, by rw [hpos, er], hv⟩
  · refine .new (ls := []) (.fromCostmapAtRobot s.costmap ⟨s.nx * s.costmap.costmap.resolution, s.ny * s.costmap.costmap.resolution⟩ l)
      (by simp) (by show s.costmap.robot ≠ none; rw [hp]; simp) ⟨hs.costmap, fun q hq => by cases hp.symm.trans hq; exact geo⟩ ?_
    exact discard_ok e'
  · exact (hc.mem_iff _).1 (by rw [f8]; simp [CostMap.new, CostMap.exists])
  · have := tol f6 hpt.1 hs.costmap.corner.1
    rw [hpos] at this
    have e2 : s.costmap.costmap.origin.x + (x0 + (s.nx : K) / 2) * s.costmap.costmap.resolution =
      s.costmap.costmap.origin.x + x0 * s.costmap.costmap.resolution + s.nx * s.costmap.costmap.resolution / 2 := by ring
    rw [e2]; exact this
  · have := tol f7 hpt.2 hs.costmap.corner.2
    rw [hpos] at this
    have e2 : s.costmap.costmap.origin.y + (y0 + (s.ny : K) / 2) * s.costmap.costmap.resolution =
      s.costmap.costmap.origin.y + y0 * s.costmap.costmap.resolution + s.ny * s.costmap.costmap.resolution / 2 := by ring
    rw [e2]; exact this

theorem logical_zero {o : CostMap K} (h : o.startIndex = 0) {j : Idx} (hj : j.In o.size) : o.logical j = j := by
  obtain ⟨a, b, c, d⟩ := hj
  unfold logical
  rw [h]
  ext
  · show (j.x - 0) % o.size.x = j.x
    rw [sub_zero, Int.emod_eq_of_lt a b]
  · show (j.y - 0) % o.size.y = j.y
    rw [sub_zero, Int.emod_eq_of_lt c d]

/-- What the window shows at the place of a cell of the map is what the costmap has there. -/
theorem window_shows {m o : CostMap K} (hr : 0 < m.resolution) {s : Reading K} {x0 y0 : Nat} {l : String}
    (hk : ∃ k : Idx, |s.costmap.costmap.origin.x - (m.position.x - m.size.x * m.resolution / 2) - k.x * m.resolution| ≤ m.resolution / 8 ∧
      |s.costmap.costmap.origin.y - (m.position.y - m.size.y * m.resolution / 2) - k.y * m.resolution| ≤ m.resolution / 8)
    (er : s.costmap.costmap.resolution = m.resolution) (or : o.resolution = m.resolution) (oz : o.size = ⟨s.nx, s.ny⟩)
    (os : o.startIndex = 0) (op : o.position = ⟨s.costmap.costmap.origin.x + x0 * m.resolution + s.nx * m.resolution / 2,
      s.costmap.costmap.origin.y + y0 * m.resolution + s.ny * m.resolution / 2⟩)
    (hv : ∀ i : Idx, i.In o.size → ∃ (v : Cost) (col row : Nat), (col : Int) = x0 + (s.nx - 1 - i.x) ∧
      (row : Int) = y0 + (s.ny - 1 - i.y) ∧ o.at l i = .ok v ∧ s.costmap.costmap.cell col row = some v) :
    (∃ k, OnGrid (m.resolution / 8) m o k) ∧
      ∀ i d, m.ShowsThere l i o d ↔ Reading.Sees m i (s, some (x0, y0)) d := by
  obtain ⟨k0, kx, ky⟩ := hk
  have ocx : o.corner.x = s.costmap.costmap.origin.x + (x0 + s.nx : K) * m.resolution := by
    unfold corner; rw [op, oz, or]; simp only [Int.cast_natCast]; ring
  have ocy : o.corner.y = s.costmap.costmap.origin.y + (y0 + s.ny : K) * m.resolution := by
    unfold corner; rw [op, oz, or]; simp only [Int.cast_natCast]; ring
  have grid : OnGrid (m.resolution / 8) m o ⟨k0.x + x0 + s.nx - m.size.x, k0.y + y0 + s.ny - m.size.y⟩ := by
    refine ⟨or, ?_, ?_⟩
    · rw [ocx]
      convert kx using 2
      unfold corner; push_cast; ring
    · rw [ocy]
      convert ky using 2
      unfold corner; push_cast; ring
  -- the centres of cells
  have cenx : ∀ (col : Nat) (j L : Idx), (col : Int) = x0 + (s.nx - 1 - j.x) → ∀ row,
      (s.costmap.costmap.cellCentre col row).x - (m.idealCentre L).x = o.corner.x - m.corner.x - ((j.x - L.x : Int) : K) * m.resolution := by
    intro col j L h row
    have e : (col : K) = x0 + ((s.nx : K) - 1 - j.x) := by exact_mod_cast congrArg (Int.cast (R := K)) h
    rw [ocx]
    unfold Costmap2D.cellCentre idealCentre corner
    simp only
    rw [e, er]; push_cast; ring
  have ceny : ∀ (row : Nat) (j L : Idx), (row : Int) = y0 + (s.ny - 1 - j.y) → ∀ col,
      (s.costmap.costmap.cellCentre col row).y - (m.idealCentre L).y = o.corner.y - m.corner.y - ((j.y - L.y : Int) : K) * m.resolution := by
    intro row j L h col
    have e : (row : K) = y0 + ((s.ny : K) - 1 - j.y) := by exact_mod_cast congrArg (Int.cast (R := K)) h
    rw [ocy]
    unfold Costmap2D.cellCentre idealCentre corner
    simp only
    rw [e, er]; push_cast; ring
  refine ⟨⟨_, grid⟩, fun i d => ⟨?_, ?_⟩⟩
  · rintro ⟨k, j, g, ⟨hj, e⟩, hat, hd⟩
    rw [logical_zero os hj] at e
    obtain ⟨v, col, row, h1, h2, h3, h4⟩ := hv j hj
    rw [hat] at h3
    cases h3
    rw [oz] at hj
    obtain ⟨j1, j2, j3, j4⟩ := hj
    dsimp only at j2 j4
    have ex : j.x - (m.logical i).x = k.x := by rw [e]; show (m.logical i).x + k.x - (m.logical i).x = k.x; ring
    have ey : j.y - (m.logical i).y = k.y := by rw [e]; show (m.logical i).y + k.y - (m.logical i).y = k.y; ring
    refine ⟨x0, y0, col, row, rfl, ⟨by omega, by dsimp only; omega⟩, ⟨by omega, by dsimp only; omega⟩, h4, hd, ?_, ?_⟩
    · dsimp only; rw [cenx col j _ h1, ex]; exact g.x
    · dsimp only; rw [ceny row j _ h2, ey]; exact g.y
  · rintro ⟨x0', y0', col, row, hq, ⟨c1, c2⟩, ⟨r1, r2⟩, hcell, hd, dx, dy⟩
    cases hq
    dsimp only at c2 r2 hcell dx dy
    have hj : (⟨x0 + s.nx - 1 - col, y0 + s.ny - 1 - row⟩ : Idx).In o.size := by
      rw [oz]; exact ⟨by dsimp only; omega, by dsimp only; omega, by dsimp only; omega, by dsimp only; omega⟩
    obtain ⟨v, col', row', h1, h2, h3, h4⟩ := hv _ hj
    dsimp only at h1 h2
    obtain rfl : col' = col := by omega
    obtain rfl : row' = row := by omega
    rw [hcell] at h4
    cases h4
    refine ⟨_, _, grid, ⟨hj, ?_⟩, h3, hd⟩
    rw [logical_zero os hj]
    rw [cenx col' ⟨x0 + s.nx - 1 - col', y0 + s.ny - 1 - row'⟩ _ (by dsimp only; omega)] at dx
    rw [ceny row' ⟨x0 + s.nx - 1 - col', y0 + s.ny - 1 - row'⟩ _ (by dsimp only; omega)] at dy
    have ex := near_cells hr dx grid.x
    have ey := near_cells hr dy grid.y
    dsimp only at ex ey
    ext
    · show (x0 + s.nx - 1 - col' : Int) = (m.logical i).x + (k0.x + x0 + s.nx - m.size.x)
      omega
    · show (y0 + s.ny - 1 - row' : Int) = (m.logical i).y + (k0.y + y0 + s.ny - m.size.y)
      omega

/-- C111. A robot maps its surroundings: whatever the map's history, and however many readings are taken, known positions or not, the
program ends without an exception and nothing is undefined. Each reading whose position is known has a window of the costmap around the
robot. Every cell of the map ends with the cost that the last costmap has at its place which has a known one there in its window; or it
keeps its cost. Other layers, the geometry, the frame and the time stay, and the map is again one of C101. -/
theorem C111_mapping {w : World K} {F : Fmt K} {rf : K → K} (hrd : DoublePrecision F.rd) (hF : IntsExact F.rd)
    (htop : 2 ^ 31 ≤ F.top) {u : K} (hg : GridExact F.rd u) {m : CostMap K} (hm : HeldI w F rf m)
    (hb : ∀ l ∈ m.basicLayers, m.exists l = true) {readings : List (Reading K)} (hs : ∀ s ∈ readings, s.Fits w u m) (l : String) :
    ∃ (m' : CostMap K) (pairs : List (Reading K × Option (Nat × Nat))), mapReadings F.rd l readings m = (.ok (), m') ∧
      pairs.map Prod.fst = readings ∧ (∀ q ∈ pairs, q.1.Window q.2) ∧
      HeldI w F rf m' ∧ SameGeometry m m' ∧ SameMeta m m' ∧
      ∀ l' i old, i.In m.size → m.at l' i = .ok old →
        (l' ≠ l → m'.at l' i = .ok old) ∧ (l' = l → ∃ c, m'.at l i = .ok c ∧ IsLatest (Reading.Sees m i) pairs old c) := by
  have hr := (held_inWorld hrd hF htop hm).geo.res_pos
  -- the windows
  have hwin : ∃ pairs : List (Reading K × Option (Nat × Nat)), pairs.map Prod.fst = readings ∧ (∀ q ∈ pairs, q.1.Window q.2) ∧
      ∀ q ∈ pairs, (q.2 = none → q.1.costmap.robot = none) ∧ ∀ x0 y0, q.2 = some (x0, y0) →
        ∃ o, fromCostmap2DROSAtRobotPoseI F.rd q.1.costmap
            ⟨q.1.nx * q.1.costmap.costmap.resolution, q.1.ny * q.1.costmap.costmap.resolution⟩ l (CostMap.new []) = (.ok true, o) ∧
          HeldI w F rf o ∧ o.exists l = true ∧ (∃ k, OnGrid (m.resolution / 8) m o k) ∧
          ∀ i d, m.ShowsThere l i o d ↔ Reading.Sees m i (q.1, some (x0, y0)) d := by
    induction readings with
    | nil => exact ⟨[], rfl, by simp, by simp⟩
    | cons s ss ih =>
      obtain ⟨ps, p1, p2, p3⟩ := ih fun s' h => hs s' (by simp [h])
      cases hp : s.costmap.robot with
      | none =>
        refine ⟨(s, none) :: ps, by simp [p1], ?_, ?_⟩
        · intro q hq
          rcases List.mem_cons.1 hq with rfl | hq
          · exact hp
          · exact p2 q hq
        · intro q hq
          rcases List.mem_cons.1 hq with rfl | hq
          · exact ⟨fun _ => hp, fun _ _ h => by cases h⟩
          · exact p3 q hq
      | some p =>
        have fs := hs s (by simp)
        obtain ⟨o, x0, y0, e, ho, hl, hw, o1, o2, o3, o4, o5⟩ := reading_window (rf := rf) hrd hF hg fs l hp
        obtain ⟨g, sh⟩ := window_shows hr fs.aligned fs.resolution o1 o2 o3 o4 o5
        refine ⟨(s, some (x0, y0)) :: ps, by simp [p1], ?_, ?_⟩
        · intro q hq
          rcases List.mem_cons.1 hq with rfl | hq
          · exact hw
          · exact p2 q hq
        · intro q hq
          rcases List.mem_cons.1 hq with rfl | hq
          · exact ⟨fun h => (by cases h), fun _ _ h => by cases h; exact ⟨o, e, ho, hl, g, sh⟩⟩
          · exact p3 q hq
  obtain ⟨pairs, q1, q2, q3⟩ := hwin
  obtain ⟨m', e, ⟨h0, h1, h2, -⟩, h4⟩ := loop_latest (step := fun q : Reading K × Option (Nat × Nat) => q.1.takeIn F.rd l) (ls := [l])
    (size := m.size) (Inv := fun s => HeldI w F rf s ∧ SameGeometry m s ∧ SameMeta m s ∧ ∀ l, m.exists l = true → s.exists l = true)
    (shows := fun _ i q d => Reading.Sees m i q d) (os := pairs) (fun q hq s ⟨sh, sg, sm, sx⟩ => by
      obtain ⟨n1, n2⟩ := q3 q hq
      obtain ⟨s0, win⟩ := q
      cases win with
      | none =>
        have hrob := n1 rfl
        have : Reading.takeIn F.rd l s0 s = (.ok (), s) := by
          unfold Reading.takeIn fromCostmap2DROSAtRobotPoseI initAtRobotPoseI
          dsimp only at hrob
          rw [hrob]
          rfl
        refine ⟨s, this, ⟨sh, sg, sm, sx⟩, fun l' i old hi hold => ⟨fun _ => hold, fun _ => ⟨old, hold, ?_, fun _ => rfl⟩⟩⟩
        rintro ⟨d, x0, y0, col, row, hq, -⟩
        cases hq
      | some xy =>
        obtain ⟨x0, y0⟩ := xy
        obtain ⟨o, e, ho, hl, g, hsh⟩ := n2 x0 y0 rfl
        obtain ⟨s1, e1, h1, g1, m1, -, x1, k1⟩ := merge_step hrd hF htop sh sg ho g (ls := [l]) (by simpa using hl)
          (fun l h => .inl (sx l (hb l (by rw [← sm.basicLayers]; exact h)))) true
        refine ⟨s1, ?_, ⟨h1, sg.trans' g1, sm.trans' m1, fun l h => (x1 l).2 (.inl (sx l h))⟩, fun l' i old hi hold => ?_⟩
        · show Reading.takeIn F.rd l s0 s = _
          unfold Reading.takeIn
          dsimp only at e
          rw [e]
          exact e1
        · obtain ⟨a1, a2⟩ := k1 l' i hi
          refine ⟨fun hl => (a2 (fun h => hl h.1) (exists_of_at hold)).trans hold, fun hl => ?_⟩
          obtain rfl : l' = l := by simpa using hl
          by_cases hd : ∃ d, m.ShowsThere l' i o d
          · obtain ⟨d, hd⟩ := hd
            exact ⟨d, a1 d (by simp) (.inl rfl) hd, fun _ => (hsh i d).1 hd, fun h => absurd ⟨d, (hsh i d).1 hd⟩ h⟩
          · exact ⟨old, (a2 (fun h => hd h.2.2) (exists_of_at hold)).trans hold,
              fun ⟨d, h⟩ => absurd ⟨d, (hsh i d).2 h⟩ hd, fun _ => rfl⟩)
    m ⟨hm, ⟨rfl, rfl, rfl, rfl, rfl⟩, ⟨rfl, rfl, rfl⟩, fun _ h => h⟩
  refine ⟨m', pairs, ?_, q1, q2, h0, h1, h2, fun l' i old hi hold => ?_⟩
  · unfold mapReadings
    rw [← q1, Act.forEach_map]
    exact e
  · obtain ⟨v1, v2⟩ := h4 l' i old hi hold
    exact ⟨fun h => v1 (by simpa using h), fun h => by subst h; exact v2 (by simp)⟩

end

namespace Demo

/-- A map of 12 x 8 cells of a quarter around (1/2, 1). -/
def survey : CostMap ℚ := (setGeometryI toDouble ⟨3, 2⟩ (1 / 4) ⟨1 / 2, 1⟩ (CostMap.new ["a", "b"])).2

theorem survey_held : HeldI hundred binary64 toFloat survey := by
  refine .new (.setGeometry ⟨3, 2⟩ (1 / 4) ⟨1 / 2, 1⟩) (ls := ["a", "b"]) (by simp) trivial
    ⟨by decide +kernel, by decide +kernel, by decide +kernel, by decide +kernel, by decide +kernel, by unfold PointIn; decide +kernel⟩ ?_
  have h : (setGeometryI toDouble ⟨3, 2⟩ (1 / 4) ⟨1 / 2, 1⟩ (CostMap.new ["a", "b"])).1 = .ok () := by decide +kernel
  exact Prod.ext h rfl

theorem survey_aligned : quarterCostmap.OnGrid (2 ^ (-3 : ℤ)) 1 ⟨-8, 4⟩ ∧ quarterCostmap.resolution = survey.resolution ∧
    |quarterCostmap.origin.x - (survey.position.x - survey.size.x * survey.resolution / 2) - ((0 : Int) : ℚ) * survey.resolution| ≤ survey.resolution / 8 ∧
    |quarterCostmap.origin.y - (survey.position.y - survey.size.y * survey.resolution / 2) - ((2 : Int) : ℚ) * survey.resolution| ≤ survey.resolution / 8 :=
  ⟨⟨by decide +kernel, by decide +kernel, by decide +kernel, by decide +kernel, by decide +kernel, by decide +kernel⟩,
    by decide +kernel, by decide +kernel, by decide +kernel⟩

theorem reading_fits {p : Vec ℚ} (hp : PointIn hundred.size p ∧ (-1 : ℚ) + (3 + 2) * (1 / 4) / 2 ≤ p.x ∧ p.x + (3 + 2) * (1 / 4) / 2 ≤ -1 + 8 * (1 / 4) ∧
    (1 / 2 : ℚ) + (2 + 2) * (1 / 4) / 2 ≤ p.y ∧ p.y + (2 + 2) * (1 / 4) / 2 ≤ 1 / 2 + 6 * (1 / 4)) :
    (⟨⟨quarterCostmap, "map", some p, 7⟩, 3, 2⟩ : Reading ℚ).Fits hundred (2 ^ (-3 : ℤ)) survey where
  costmap := quarter_costmap
  grid := ⟨1, ⟨-8, 4⟩, survey_aligned.1⟩
  resolution := survey_aligned.2.1
  aligned := ⟨⟨0, 2⟩, survey_aligned.2.2⟩
  cells_x := by norm_num
  cells_y := by norm_num
  robot := by
    intro q hq
    cases hq
    have e : survey.resolution = 1 / 4 := by decide +kernel
    rw [e]
    exact hp

end Demo

-- Two readings at two places and one without a position.
example : ∃ (m' : CostMap ℚ) (pairs : List (Reading ℚ × Option (Nat × Nat))), mapReadings toDouble "a"
      [⟨⟨Demo.quarterCostmap, "map", some ⟨0, toDouble (13 / 10)⟩, 7⟩, 3, 2⟩, ⟨⟨Demo.quarterCostmap, "map", none, 8⟩, 3, 2⟩,
        ⟨⟨Demo.quarterCostmap, "map", some ⟨toDouble (1 / 10), 5 / 4⟩, 7⟩, 3, 2⟩] Demo.survey = (.ok (), m') ∧ pairs.length = 3 ∧
      HeldI Demo.hundred binary64 toFloat m' := by
  obtain ⟨m', pairs, e, h1, -, h2, -⟩ := C111_mapping (F := binary64) toDouble_precision toDouble_ints Demo.top64
    (C96_double_grid (-3)) Demo.survey_held (by decide +kernel) (readings := [⟨⟨Demo.quarterCostmap, "map", some ⟨0, toDouble (13 / 10)⟩, 7⟩, 3, 2⟩,
      ⟨⟨Demo.quarterCostmap, "map", none, 8⟩, 3, 2⟩, ⟨⟨Demo.quarterCostmap, "map", some ⟨toDouble (1 / 10), 5 / 4⟩, 7⟩, 3, 2⟩])
    (by
      intro s hs
      simp only [List.mem_cons, List.not_mem_nil, or_false] at hs
      rcases hs with rfl | rfl | rfl
      · exact Demo.reading_fits (p := ⟨0, toDouble (13 / 10)⟩) (by unfold PointIn; decide +kernel)
      · have h := Demo.reading_fits (p := ⟨0, 5 / 4⟩) (by unfold PointIn; decide +kernel)
        exact ⟨h.costmap, h.grid, h.resolution, h.aligned, h.cells_x, h.cells_y, fun q hq => by cases hq⟩
      · exact Demo.reading_fits (p := ⟨toDouble (1 / 10), 5 / 4⟩) (by unfold PointIn; decide +kernel)) "a"
  exact ⟨m', pairs, e, by simpa using congrArg List.length h1, h2⟩

end CostMapModel

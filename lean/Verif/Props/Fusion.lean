import Verif.Model.Fusion
import Verif.Props.Merge
import Verif.Props.Window
import Verif.Props.MachineFootprint
import Verif.Spec.MachineLine

/-! # C120: planning with the obstacles of another map -/

set_option linter.unusedSectionVars false

namespace CostMapModel
open Inflation CostMap

section
variable {K : Type} [Field K] [LinearOrder K] [IsStrictOrderedRing K] [FloorRing K]
variable {pop : Pop K} {hyp : Nat → Nat → K} {computer : K → Cost} {radius : K} {m other : CostMap K} {o : Inflater K}

/-- One axis: a cell that is not smaller than the cells of a grid contains a centre of the grid. -/
theorem centre_in_cell {r R M c x : K} {n : Int} (hr : 0 < r) (hR : r ≤ R) (h1 : c - R / 2 < x) (h2 : x ≤ c + R / 2)
    (h3 : M - n * r + R ≤ x) (h4 : x ≤ M - R) :
    ∃ u : Int, 0 ≤ u ∧ u < n ∧ c - R / 2 < M - r / 2 - r * u ∧ M - r / 2 - r * u ≤ c + R / 2 := by
  obtain ⟨q, hq⟩ : ∃ q, q = (M - r / 2 - (c + R / 2)) / r := ⟨_, rfl⟩
  have e : q * r = M - r / 2 - (c + R / 2) := by rw [hq, div_mul_cancel₀ _ hr.ne']
  have g1 := mul_le_mul_of_nonneg_right (Int.le_ceil q) hr.le
  have g2 := mul_lt_mul_of_pos_right (Int.ceil_lt_add_one q) hr
  rw [add_mul, e] at g2
  rw [e] at g1
  refine ⟨⌈q⌉, ?_, ?_, by linarith, by linarith⟩
  · have : (((-1 : Int)) : K) < ⌈q⌉ := lt_of_mul_lt_mul_right (a := r) (by push_cast; linarith) hr.le
    have := Int.cast_lt.mp this
    omega
  · have : ((⌈q⌉ : Int) : K) < n := lt_of_mul_lt_mul_right (a := r) (by linarith) hr.le
    exact Int.cast_lt.mp this

/-- A cell of the other map that reaches far enough into the map contains the centre of a cell of the map, which reads the same in the other map. -/
theorem centre_reads (hg : m.Geo) (hog : other.Geo) (hr : m.resolution ≤ other.resolution) {l : String} {x : Vec K} {c : Cost}
    (hx : other.atPosition l x = .ok c) (hin : WellInside other.resolution m x) :
    ∃ i y, m.getPosition i = some y ∧ other.atPosition l y = .ok c ∧ |y.x - x.x| < other.resolution ∧ |y.y - x.y| < other.resolution := by
  have hxo : other.isInside x = true := by
    by_contra h'
    rw [atPosition_outside (by simpa using h')] at hx
    cases hx
  obtain ⟨-, q, hq, hsq⟩ := (C11_containing_cell hog x).2 ((C11_inside_iff other x).mp hxo)
  have hat := C13_read_containing_cell hog hq hsq l
  obtain ⟨⟨a1, a2⟩, b1, b2⟩ := hsq
  obtain ⟨i1, i2⟩ := abs_le.mp hin.x
  obtain ⟨i3, i4⟩ := abs_le.mp hin.y
  have lx := hg.len_x
  have ly := hg.len_y
  obtain ⟨u, u1, u2, u3, u4⟩ := centre_in_cell (M := m.position.x + m.length.x / 2) (n := m.size.x) hg.res_pos hr a1 a2 (by linarith) (by linarith)
  obtain ⟨v, v1, v2, v3, v4⟩ := centre_in_cell (M := m.position.y + m.length.y / 2) (n := m.size.y) hg.res_pos hr b1 b2 (by linarith) (by linarith)
  have hu : (⟨u, v⟩ : Idx).In m.size := ⟨u1, u2, v1, v2⟩
  have hp := getPosition_eq (bufferIdx_in hu hg.start)
  rw [unwrap_buffer hu hg.start] at hp
  refine ⟨_, _, hp, ?_, ?_, ?_⟩
  · rw [C13_read_containing_cell hog hq ⟨⟨u3, u4⟩, v3, v4⟩, ← hat, hx]
  · show |m.position.x + m.length.x / 2 - m.resolution / 2 - m.resolution * u - x.x| < _
    rw [abs_lt]; constructor <;> linarith
  · show |m.position.y + m.length.y / 2 - m.resolution / 2 - m.resolution * v - x.y| < _
    rw [abs_lt]; constructor <;> linarith

/-- The centre of a cell reads the cell. -/
theorem centre_at (hg : m.Geo) {i : Idx} {y : Vec K} (hy : m.getPosition i = some y) (l : String) : m.atPosition l y = m.at l i :=
  C13_read_containing_cell hg hy ⟨⟨by linarith [hg.res_pos], by linarith [hg.res_pos]⟩, by linarith [hg.res_pos], by linarith [hg.res_pos]⟩ l

/-- C120. A layer of another map is merged in, overwriting. The cells of the map are not larger than those of the other map; the grids need not be aligned.
Every valid cost of the other map, at a position at least one of its cells inside the map, is then in the map, less than one of its cells away. -/
theorem C120_seen (hg : m.Geo) (hc : m.Coherent) (hog : other.Geo) (hoc : other.Coherent) (hr : m.resolution ≤ other.resolution) {l : String}
    (hl : other.exists l = true) (hb : ∀ k ∈ m.basicLayers, m.exists k = true ∨ k = l) :
    ∃ m', addDataFrom other false true false [l] m = (.ok true, m') ∧ SameGeometry m m' ∧
      ∀ x c, other.atPosition l x = .ok c → c ≠ NO_INFORMATION → WellInside other.resolution m x →
        ∃ y, m'.atPosition l y = .ok c ∧ |y.x - x.x| < other.resolution ∧ |y.y - x.y| < other.resolution := by
  obtain ⟨m', e, sg, -, -, -, h⟩ := C33_merges_cell_by_cell hg hc hog hoc true false [l] [l] rfl (by simpa using hl) (by simpa using hb)
  refine ⟨m', e, sg, fun x c hx hne hin => ?_⟩
  obtain ⟨i, y, hy, hoy, d1, d2⟩ := centre_reads hg hog hr hx hin
  refine ⟨y, ?_, d1, d2⟩
  have hy' : m'.getPosition i = some y := by rw [getPosition_congr sg, hy]
  rw [centre_at (sg.geo hg) hy']
  exact (h l i y hy).1 c (by simp) (.inl rfl) hoy hne

/-- C120. Nothing is made up, with or without overwriting: a valid cost of the merged layer was in the map at that position, or is in the other map at most
half a cell away. -/
theorem C120_not_made_up (hg : m.Geo) (hc : m.Coherent) (hog : other.Geo) (hoc : other.Coherent) {l : String} (hl : other.exists l = true)
    (hb : ∀ k ∈ m.basicLayers, m.exists k = true ∨ k = l) (overwrite : Bool) :
    ∃ m', addDataFrom other false overwrite false [l] m = (.ok true, m') ∧
      ∀ x c, m'.atPosition l x = .ok c → c ≠ NO_INFORMATION → m.atPosition l x = .ok c ∨
        ∃ y, other.atPosition l y = .ok c ∧ |y.x - x.x| ≤ m.resolution / 2 ∧ |y.y - x.y| ≤ m.resolution / 2 := by
  classical
  obtain ⟨m', e, sg, -, -, -, h⟩ := C33_merges_cell_by_cell hg hc hog hoc overwrite false [l] [l] rfl (by simpa using hl) (by simpa using hb)
  refine ⟨m', e, fun x c hx hne => ?_⟩
  have hg' := sg.geo hg
  have hxo : m'.isInside x = true := by
    by_contra h'
    rw [atPosition_outside (by simpa using h')] at hx
    cases hx
  obtain ⟨-, q, hq, hsq⟩ := (C11_containing_cell hg' x).2 ((C11_inside_iff m' x).mp hxo)
  rw [C13_read_containing_cell hg' hq hsq l] at hx
  rw [sg.resolution] at hsq
  obtain ⟨i, hi⟩ : ∃ i, i = (m'.getIndex x).1 := ⟨_, rfl⟩
  rw [← hi] at hq hx
  have hqm : m.getPosition i = some q := by rw [← getPosition_congr sg, hq]
  obtain ⟨h1, h2⟩ := h l i q hqm
  by_cases hw : l ∈ [l] ∧ (overwrite = true ∨ ¬ m.ValidCell i) ∧ ∃ c, other.atPosition l q = .ok c ∧ c ≠ NO_INFORMATION
  · obtain ⟨-, hov, c', hc', hne'⟩ := hw
    rw [h1 c' (by simp) hov hc' hne'] at hx
    cases hx
    obtain ⟨⟨a1, a2⟩, b1, b2⟩ := hsq
    exact .inr ⟨q, hc', by rw [abs_le]; constructor <;> linarith, by rw [abs_le]; constructor <;> linarith⟩
  · left
    rw [C13_read_containing_cell hg hqm hsq l]
    cases hml : m.exists l
    · rw [(h2 hw).2 hml (by simp)] at hx
      cases hx
      exact absurd rfl hne
    · rw [← (h2 hw).1 hml, hx]

/-- C120. Cut a window out of the merged map, inflate it and look at one cost: if the answer is "clear", no obstacle of the other map is under the robot, as far as
the robot is in the window, and in the map by a cell of the other map. -/
theorem C120_fits (hg : m.Geo) (hc : m.Coherent) (hog : other.Geo) (hoc : other.Coherent) (hr : m.resolution ≤ other.resolution) {ls : String}
    (hl : other.exists ls = true) (hb : ∀ k ∈ m.basicLayers, m.exists k = true ∨ k = ls) (ld : String)
    (hn : radiusInCells radius m.resolution < 2 ^ 32 - 1) (hpop : PopOk pop)
    (hh : HypOk hyp (radiusInCells radius m.resolution)) (ho : Used hyp computer m.resolution o) {thr : Cost}
    (hthr : ∀ d, d ≤ m.resolution * (radiusInCells radius m.resolution : K) → thr ≤ computer d) {ρ : K} (hρ0 : 0 ≤ ρ)
    (h1 : 1 ≤ radiusInCells radius m.resolution)
    (hρ : 2 * (ρ + 3 / 2 * other.resolution) ^ 2 ≤ (((radiusInCells radius m.resolution : K) - 1) * m.resolution) ^ 2)
    {pos len : Vec K} (hok : RequestOk m pos len) (hx : 0 ≤ len.x) (hy : 0 ≤ len.y) (hpos : m.isInside pos = true)
    {p : Vec K} (hp : m.Covers p) (hpr : InRect pos len p) :
    ∃ r, fused other true ls
        (fun m' => inWindow m' pos len (inflated pop hyp ls ld radius computer o fun w => placeClear w ld thr p)) m = .ok r ∧
      (r = true → (∀ x, UnderRobot (ρ + 3 / 2 * other.resolution) p x → m.Covers x → InRect pos len x) →
        ∀ x, UnderRobot ρ p x → WellInside other.resolution m x → other.atPosition ls x ≠ .ok LETHAL_OBSTACLE) := by
  obtain ⟨m', e, sg, -, mc, mx, -⟩ := C33_merges_cell_by_cell hg hc hog hoc true false [ls] [ls] rfl (by simpa using hl) (by simpa using hb)
  obtain ⟨m'', e', -, hseen⟩ := C120_seen hg hc hog hoc hr hl hb
  obtain rfl : m' = m'' := by rw [e] at e'; exact (Prod.mk.inj e').2
  have hcov : ∀ q, m'.Covers q ↔ m.Covers q := fun q => by unfold Covers; rw [sg.position, sg.length]
  have hres := hog.res_pos
  obtain ⟨r, hr, h⟩ := C119_fits (m := m') (o := o) (ρ := ρ + 3 / 2 * other.resolution) (sg.geo hg) mc (ls := ls) ((mx ls).mpr (.inr (by simp))) ld
    (by rw [sg.resolution]; exact hn) hpop (by rw [sg.resolution]; exact hh) (by rw [sg.resolution]; exact ho) (by rw [sg.resolution]; exact hthr)
    (by rw [sg.resolution]; exact h1) (by rw [sg.resolution]; exact hρ)
    (pos := pos) (len := len) (by
      unfold RequestOk EpsOk at *
      rw [sg.resolution]
      exact hok) hx hy
    ((C11_inside_iff m' pos).mpr ((hcov _).mpr ((C11_inside_iff m pos).mp hpos))) ((hcov p).mpr hp) hpr
  refine ⟨r, ?_, fun hrt hin x hxr hxi hlet => ?_⟩
  · unfold fused
    rw [e]
    exact hr
  · obtain ⟨y, hy, d1, d2⟩ := hseen x _ hlet (by decide) hxi
    refine h hrt (fun z hz hzc => hin z hz ((hcov z).mp hzc)) y ?_ hy
    unfold UnderRobot at hxr ⊢
    have hd := offset_bound d1.le d2.le hxr hρ0 hres.le
    have e : (y.x - p.x) ^ 2 + (y.y - p.y) ^ 2 = (y.x - x.x + (x.x - p.x)) ^ 2 + (y.y - x.y + (x.y - p.y)) ^ 2 := by ring
    rw [e]
    exact hd.trans (pow_le_pow_left₀ (by linarith) (by linarith) 2)

/-- C120. Without overwriting, if the layer is the map's only basic layer. The obstacles of the map itself stay: a robot that fits in the merged map fits in the
map. Those of the other map are seen where the map knew nothing. -/
theorem C120_own (hg : m.Geo) (hc : m.Coherent) (hog : other.Geo) (hoc : other.Coherent) {l : String} (hl : other.exists l = true)
    (hb : m.basicLayers = [l]) :
    ∃ m', addDataFrom other false false false [l] m = (.ok true, m') ∧ SameGeometry m m' ∧
      (∀ ρ p, m'.RobotFits l ρ p → m.RobotFits l ρ p) ∧
      (m.resolution ≤ other.resolution → ∀ x c, other.atPosition l x = .ok c → c ≠ NO_INFORMATION → WellInside other.resolution m x →
        (∀ y, |y.x - x.x| < other.resolution → |y.y - x.y| < other.resolution → ∀ v, m.atPosition l y = .ok v → v = NO_INFORMATION) →
        ∃ y, m'.atPosition l y = .ok c ∧ |y.x - x.x| < other.resolution ∧ |y.y - x.y| < other.resolution) := by
  obtain ⟨m', e, sg, -, -, -, h⟩ := C33_merges_cell_by_cell hg hc hog hoc false false [l] [l] rfl (by simpa using hl)
    (by rw [hb]; simp)
  refine ⟨m', e, sg, fun ρ p hfit x hx hlet => ?_, fun hr x c hx hne hin hun => ?_⟩
  · have hxo : m.isInside x = true := by
      by_contra h'
      rw [atPosition_outside (by simpa using h')] at hlet
      cases hlet
    obtain ⟨-, q, hq, hsq⟩ := (C11_containing_cell hg x).2 ((C11_inside_iff m x).mp hxo)
    rw [C13_read_containing_cell hg hq hsq l] at hlet
    have := C34_single_basic_layer (other := other) hc hb false [l] hlet (by decide)
    rw [e] at this
    refine hfit x hx ?_
    rw [C13_read_containing_cell (sg.geo hg) (c := q) (i := (m.getIndex x).1) (by rw [getPosition_congr sg, hq])
      (by rw [sg.resolution]; exact hsq) l, this]
  · obtain ⟨i, y, hy, hoy, d1, d2⟩ := centre_reads hg hog hr hx hin
    refine ⟨y, ?_, d1, d2⟩
    rw [centre_at (sg.geo hg) (i := i) (by rw [getPosition_congr sg, hy])]
    refine (h l i y hy).1 c (by simp) (.inr fun hv => ?_) hoy hne
    obtain ⟨v, hv, hvn⟩ := hv.2 l (by rw [hb]; simp)
    exact hvn (hun y d1 d2 v (by rw [centre_at hg hy, hv]))

end

namespace Demo

/-- A map of 12 x 12 cells of half the size, shifted by a third, all free. -/
def fine : CostMap ℚ :=
  (CostMap.addConst "s" 0 (CostMap.setGeometry ⟨6, 6⟩ (1 / 2) ⟨1 / 3, 0⟩ (CostMap.new [])).2).2

theorem fine_geo : fine.Geo :=
  ⟨by decide +kernel, by decide +kernel, by decide +kernel, by decide +kernel, by decide +kernel, by decide +kernel⟩

theorem fine_coherent : fine.Coherent := addConst_coherent _ _ _ (setGeometry_coherent _ _ _ _ (new_coherent (by simp)))

/-- A map of 5 x 5 cells, all free. -/
def open5 : CostMap ℚ := grid 5 5 fun _ _ => 0

theorem open5_geo : open5.Geo :=
  ⟨by decide +kernel, by decide +kernel, by decide +kernel, by decide +kernel, by decide +kernel, by decide +kernel⟩

/-- The free map of small cells, with an obstacle in one of them. -/
def pebble : CostMap ℚ := (setAt "s" ⟨6, 5⟩ LETHAL_OBSTACLE fine).2

theorem pebble_geo : pebble.Geo :=
  ⟨by decide +kernel, by decide +kernel, by decide +kernel, by decide +kernel, by decide +kernel, by decide +kernel⟩

theorem pebble_coherent : pebble.Coherent := (setAt_shape _ _ _ fine).coherent fine_coherent

/-- A map of 5 x 5 cells without lethal cells: every robot fits. -/
theorem no_lethal {m : CostMap ℚ} (hg : m.Geo) (hs : m.size = ⟨5, 5⟩) (h : ∀ q ∈ colMajor 5 5, m.at "s" q ≠ .ok LETHAL_OBSTACLE) (ρ : ℚ) (p : Vec ℚ) :
    m.RobotFits "s" ρ p := by
  intro x _ hlet
  obtain ⟨i, c, hc, hi, -, -⟩ := lethal_centre hg hlet
  have hin : i.In m.size := by
    by_contra hn; rw [getPosition_none hn] at hc; cases hc
  refine h i (mem_colMajor.mpr ?_) hi
  rw [hs] at hin
  unfold Idx.In at hin
  simp only at hin
  omega

end Demo

/-- C120 for a map of larger cells is false: an obstacle between the centres of its cells is lost. -/
theorem C120_false_coarse :
    Demo.open5.Geo ∧ Demo.open5.Coherent ∧ Demo.pebble.Geo ∧ Demo.pebble.Coherent ∧
      ∃ m', addDataFrom Demo.pebble false true false ["s"] Demo.open5 = (.ok true, m') ∧ (∀ ρ p, m'.RobotFits "s" ρ p) ∧
        ∃ x, Demo.pebble.atPosition "s" x = .ok LETHAL_OBSTACLE ∧ WellInside 1 Demo.open5 x := by
  refine ⟨Demo.open5_geo, Demo.grid_coherent _ _ _, Demo.pebble_geo, Demo.pebble_coherent, (addDataFrom Demo.pebble false true false ["s"] Demo.open5).2,
    Prod.ext (by decide +kernel) rfl, ?_, ⟨1 / 4, 1 / 4⟩, by decide +kernel, by decide +kernel, by decide +kernel⟩
  exact Demo.no_lethal
    ⟨by decide +kernel, by decide +kernel, by decide +kernel, by decide +kernel, by decide +kernel, by decide +kernel⟩ (by decide +kernel) (by decide +kernel)

/-- C120 for the obstacles of the map itself is false when overwriting: they are gone where the other map knows of none. -/
theorem C120_false_own :
    Demo.pillar.Geo ∧ Demo.pillar.Coherent ∧ Demo.open5.Geo ∧ Demo.open5.Coherent ∧
      ∃ m', addDataFrom Demo.open5 false true false ["s"] Demo.pillar = (.ok true, m') ∧ (∀ ρ p, m'.RobotFits "s" ρ p) ∧
        ¬ Demo.pillar.RobotFits "s" 1 ⟨-1, 0⟩ := by
  refine ⟨Demo.pillar_geo, Demo.pillar_coherent, Demo.open5_geo, Demo.grid_coherent _ _ _, (addDataFrom Demo.open5 false true false ["s"] Demo.pillar).2,
    Prod.ext (by decide +kernel) rfl, ?_, fun h => h ⟨-1, 0⟩ (by unfold UnderRobot; norm_num) (by decide +kernel)⟩
  exact Demo.no_lethal
    ⟨by decide +kernel, by decide +kernel, by decide +kernel, by decide +kernel, by decide +kernel, by decide +kernel⟩ (by decide +kernel) (by decide +kernel)

open Demo in
/-- The free map of small cells takes the obstacle at (-1, 0) over from a map of cells twice the size, not aligned. A robot of 0.1 at (-0.5, 0) touches it, and
is found not to fit. -/
example : fused pillar true "s" (fun m' => inWindow m' ⟨-1 / 2, 0⟩ ⟨4, 4⟩ (inflated pop hyp "s" "t" 3 (fun _ => 253) Inflater.new fun w =>
    placeClear w "t" 253 ⟨-1 / 2, 0⟩)) fine = .ok false := by
  have h6 : radiusInCells 3 fine.resolution = 6 := by decide +kernel
  obtain ⟨r, h1, h⟩ := C120_fits (radius := 3) (computer := fun _ => 253) (thr := 253) (ρ := 1 / 10) fine_geo fine_coherent pillar_geo pillar_coherent
    (by decide +kernel) (ls := "s") (by decide +kernel) (by decide +kernel) "t" (by rw [h6]; norm_num) pop_ok (by rw [h6]; exact hyp_ok _) .new
    (fun _ _ => UInt8.le_refl _) (by norm_num) (by rw [h6]; norm_num) (by rw [h6]; decide +kernel) (pos := ⟨-1 / 2, 0⟩) (len := ⟨4, 4⟩)
    (by unfold RequestOk; decide +kernel) (by norm_num) (by norm_num) (by decide +kernel) (p := ⟨-1 / 2, 0⟩) (by unfold Covers; decide +kernel)
    (by unfold InRect; norm_num)
  cases r
  · exact h1
  · refine absurd (h rfl (fun x hx _ => ?_) ⟨-1 / 2, 0⟩ (by unfold UnderRobot; norm_num) ⟨by decide +kernel, by decide +kernel⟩) ?_
    · rw [show pillar.resolution = 1 from by decide +kernel] at hx
      unfold UnderRobot at hx
      simp only at hx
      have e1 := abs_le.mp (abs_le_of_sq_le_sq (show (x.x - -1 / 2) ^ 2 ≤ (8 / 5) ^ 2 by norm_num at hx ⊢; nlinarith [sq_nonneg (x.y - 0)]) (by norm_num))
      have e2 := abs_le.mp (abs_le_of_sq_le_sq (show (x.y - 0) ^ 2 ≤ (8 / 5) ^ 2 by norm_num at hx ⊢; nlinarith [sq_nonneg (x.x - -1 / 2)]) (by norm_num))
      unfold InRect
      simp only
      exact ⟨⟨by linarith [e1.1], by linarith [e1.2]⟩, by linarith [e2.1], by linarith [e2.2]⟩
    · rw [not_not]
      decide +kernel

open Demo in
/-- The hypotheses of `C120_seen`, `C120_not_made_up` and `C120_own` in that case: the obstacle is seen within a cell of (-1, 0); and a map that has its own pillar
keeps it. -/
example : (∃ m' y, addDataFrom pillar false true false ["s"] fine = (.ok true, m') ∧ m'.atPosition "s" y = .ok LETHAL_OBSTACLE ∧ |y.x - -1| < 1 ∧
      |y.y - 0| < 1) ∧
    (∃ m', addDataFrom pillar false true false ["s"] fine = (.ok true, m') ∧ m'.atPosition "s" ⟨1, 1⟩ ≠ .ok LETHAL_OBSTACLE) ∧
    ∃ m', addDataFrom fine false false false ["s"] (pillar.setBasicLayers ["s"]) = (.ok true, m') ∧ ¬ m'.RobotFits "s" 1 ⟨-1, 0⟩ := by
  refine ⟨?_, ?_, ?_⟩
  · obtain ⟨m', e, -, h⟩ := C120_seen fine_geo fine_coherent pillar_geo pillar_coherent (by decide +kernel) (l := "s") (by decide +kernel) (by decide +kernel)
    obtain ⟨y, hy, d1, d2⟩ := h ⟨-1, 0⟩ LETHAL_OBSTACLE (by decide +kernel) (by decide) ⟨by decide +kernel, by decide +kernel⟩
    rw [show pillar.resolution = 1 from by decide +kernel] at d1 d2
    exact ⟨m', y, e, hy, d1, d2⟩
  · obtain ⟨m', e, h⟩ := C120_not_made_up fine_geo fine_coherent pillar_geo pillar_coherent (l := "s") (by decide +kernel) (by decide +kernel) true
    refine ⟨m', e, fun hlet => ?_⟩
    rcases h ⟨1, 1⟩ _ hlet (by decide) with h | ⟨y, hy, d1, -⟩
    · revert h; decide +kernel
    · obtain ⟨i, c, hc, hi, g1, -⟩ := lethal_centre pillar_geo hy
      have hin : i.In pillar.size := by
        by_contra hn; rw [getPosition_none hn] at hc; cases hc
      rw [pillar_lethal ⟨hin, hi⟩, show pillar.getPosition ⟨3, 2⟩ = some ⟨-1, 0⟩ from by decide +kernel] at hc
      cases hc
      rw [show pillar.resolution = 1 from by decide +kernel] at g1
      rw [show fine.resolution = 1 / 2 from by decide +kernel] at d1
      simp only at d1 g1
      linarith [(abs_le.mp d1).1, (abs_le.mp g1).1]
  · obtain ⟨m', e, -, h, -⟩ := C120_own (m := pillar.setBasicLayers ["s"]) (other := fine)
      ⟨by decide +kernel, by decide +kernel, by decide +kernel, by decide +kernel, by decide +kernel, by decide +kernel⟩
      ⟨pillar_coherent.nodup, pillar_coherent.mem_iff, pillar_coherent.dims⟩ fine_geo fine_coherent (l := "s") (by decide +kernel) (by decide +kernel)
    exact ⟨m', e, fun hf => h _ _ hf ⟨-1, 0⟩ (by unfold UnderRobot; norm_num) (by decide +kernel)⟩

end CostMapModel

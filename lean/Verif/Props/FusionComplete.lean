import Verif.Props.Fusion
import Verif.Props.MachineFusion
import Verif.Props.MachineCompleteWindow

/-! # C120, the other way round: where the robot fits in both maps, the merged map says so -/

set_option linter.unusedSectionVars false

namespace CostMapModel
open Inflation CostMap

section
variable {K : Type} [Field K] [LinearOrder K] [IsStrictOrderedRing K] [FloorRing K]
variable {pop : Pop K} {hyp : Nat → Nat → K} {computer : K → Cost} {radius : K} {m other : CostMap K} {o : Inflater K}

/-- C120. Every cost of a layer the map had before, known or not, is afterwards what it was, or a known cost of the other map at most half a cell away. -/
theorem C120_from_either (hg : m.Geo) (hc : m.Coherent) (hog : other.Geo) (hoc : other.Coherent) {l : String} (hml : m.exists l = true)
    (hl : other.exists l = true) (hb : ∀ k ∈ m.basicLayers, m.exists k = true ∨ k = l) (overwrite : Bool) :
    ∃ m', addDataFrom other false overwrite false [l] m = (.ok true, m') ∧
      ∀ x c, m'.atPosition l x = .ok c → m.atPosition l x = .ok c ∨
        ∃ y, other.atPosition l y = .ok c ∧ c ≠ NO_INFORMATION ∧ |y.x - x.x| ≤ m.resolution / 2 ∧ |y.y - x.y| ≤ m.resolution / 2 := by
  classical
  obtain ⟨m', e, sg, -, -, -, h⟩ := C33_merges_cell_by_cell hg hc hog hoc overwrite false [l] [l] rfl (by simpa using hl) (by simpa using hb)
  refine ⟨m', e, fun x c hx => ?_⟩
  have hg' := sg.geo hg
  have hxo : m'.isInside x = true := by
    by_contra h'
    rw [atPosition_outside (by simpa using h')] at hx
    cases hx
  obtain ⟨-, q, hq, hsq⟩ := (C11_containing_cell hg' x).2 ((C11_inside_iff m' x).mp hxo)
  rw [C13_read_containing_cell hg' hq hsq l] at hx
  rw [sg.resolution] at hsq
  obtain ⟨i, hi⟩ : ∃ i, i = (m'.getIndex x).1 := ⟨_, rfl⟩
  rw [← hi] at hq hx
  have hqm : m.getPosition i = some q := by rw [← getPosition_congr sg, hq]
  obtain ⟨h1, h2⟩ := h l i q hqm
  by_cases hw : l ∈ [l] ∧ (overwrite = true ∨ ¬ m.ValidCell i) ∧ ∃ c, other.atPosition l q = .ok c ∧ c ≠ NO_INFORMATION
  · obtain ⟨-, hov, c', hc', hne'⟩ := hw
    rw [h1 c' (by simp) hov hc' hne'] at hx
    cases hx
    obtain ⟨⟨a1, a2⟩, b1, b2⟩ := hsq
    exact .inr ⟨q, hc', hne', by rw [abs_le]; constructor <;> linarith, by rw [abs_le]; constructor <;> linarith⟩
  · left
    rw [C13_read_containing_cell hg hqm hsq l, ← (h2 hw).1 hml, hx]

/-- C120, the other way round, with or without overwriting: at a position in the requested rectangle, where the cost of the map and the known costs of the
other map within half a cell are below the threshold, a robot larger than the inflation by a cell fits in the map and one larger by two cells fits in the other
map, the answer of the merged map is "clear". -/
theorem C120_complete (hg : m.Geo) (hc : m.Coherent) (hog : other.Geo) (hoc : other.Coherent) {ls : String} (hml : m.exists ls = true)
    (hl : other.exists ls = true) (hb : ∀ k ∈ m.basicLayers, m.exists k = true ∨ k = ls) (overwrite : Bool) (ld : String)
    (hn : radiusInCells radius m.resolution < 2 ^ 32 - 1) (hpop : PopOk pop)
    (hh : HypOk hyp (radiusInCells radius m.resolution)) (ho : Used hyp computer m.resolution o) (thr : Cost)
    {pos len : Vec K} (hok : RequestOk m pos len) (hx : 0 ≤ len.x) (hy : 0 ≤ len.y) (hpos : m.isInside pos = true)
    {p : Vec K} {v : Cost} (hpr : InRect pos len p) (hv : m.atPosition ls p = .ok v) (hlt : v < thr)
    (hlow : ∀ y c, |y.x - p.x| ≤ m.resolution / 2 → |y.y - p.y| ≤ m.resolution / 2 → other.atPosition ls y = .ok c → c ≠ NO_INFORMATION → c < thr)
    (hfit : m.RobotFits ls (((radiusInCells radius m.resolution : K) + 1) * m.resolution) p)
    (hofit : other.RobotFits ls (((radiusInCells radius m.resolution : K) + 2) * m.resolution) p) :
    fused other overwrite ls (fun m' => inWindow m' pos len (inflated pop hyp ls ld radius computer o fun w => placeClear w ld thr p)) m = .ok true := by
  obtain ⟨m', e, sg, -, mc, mx, -⟩ := C33_merges_cell_by_cell hg hc hog hoc overwrite false [ls] [ls] rfl (by simpa using hl) (by simpa using hb)
  obtain ⟨m'', e', hfrom⟩ := C120_from_either hg hc hog hoc hml hl hb overwrite
  obtain rfl : m' = m'' := by rw [e] at e'; exact (Prod.mk.inj e').2
  have hg' := sg.geo hg
  have hcov : ∀ q, m'.Covers q ↔ m.Covers q := fun q => by unfold Covers; rw [sg.position, sg.length]
  have hpm : m.isInside p = true := by
    by_contra h'
    rw [atPosition_outside (by simpa using h')] at hv
    cases hv
  have hres := hg.res_pos
  obtain ⟨u, hu⟩ : ∃ u, m'.atPosition ls p = .ok u := by
    obtain ⟨hi, q, hq, hsq⟩ := (C11_containing_cell hg' p).2 ((hcov p).mpr ((C11_inside_iff m p).mp hpm))
    rw [C13_read_containing_cell hg' hq hsq ls]
    exact mc.at_ok ((mx ls).mpr (.inl hml)) hi
  unfold fused
  rw [e]
  refine C119_complete (m := m') hg' mc ((mx ls).mpr (.inl hml)) ld (by rw [sg.resolution]; exact hn) hpop (by rw [sg.resolution]; exact hh)
    (by rw [sg.resolution]; exact ho) thr (by
      unfold RequestOk EpsOk at *
      rw [sg.resolution]
      exact hok) hx hy ((C11_inside_iff m' pos).mpr ((hcov _).mpr ((C11_inside_iff m pos).mp hpos))) hpr hu ?_ fun x hxr hlet => ?_
  · rcases hfrom p u hu with h | ⟨y, hy, hne, d1, d2⟩
    · rw [hv] at h
      cases h
      exact hlt
    · exact hlow y u d1 d2 hy hne
  · rw [sg.resolution] at hxr
    rcases hfrom x _ hlet with h | ⟨y, hy, -, d1, d2⟩
    · exact hfit x hxr h
    · refine hofit y ?_ hy
      unfold UnderRobot at hxr ⊢
      have hn0 : (0 : K) ≤ (radiusInCells radius m.resolution : K) := Nat.cast_nonneg _
      have hd := offset_bound d1 d2 hxr (by positivity) (by linarith)
      rw [show (y.x - p.x) ^ 2 + (y.y - p.y) ^ 2 = (y.x - x.x + (x.x - p.x)) ^ 2 + (y.y - x.y + (x.y - p.y)) ^ 2 by ring]
      exact hd.trans (pow_le_pow_left₀ (by positivity) (by linarith) 2)

/-- C120. The program that does not overwrite, with the layer as the map's only basic layer, answers "clear" only where the robot fits in the map itself. -/
theorem C120_own_fits (hg : m.Geo) (hc : m.Coherent) (hog : other.Geo) (hoc : other.Coherent) {ls : String}
    (hl : other.exists ls = true) (hb : m.basicLayers = [ls]) (ld : String)
    (hn : radiusInCells radius m.resolution < 2 ^ 32 - 1) (hpop : PopOk pop)
    (hh : HypOk hyp (radiusInCells radius m.resolution)) (ho : Used hyp computer m.resolution o) {thr : Cost}
    (hthr : ∀ d, d ≤ m.resolution * (radiusInCells radius m.resolution : K) → thr ≤ computer d) {ρ : K}
    (h1 : 1 ≤ radiusInCells radius m.resolution) (hρ : 2 * ρ ^ 2 ≤ (((radiusInCells radius m.resolution : K) - 1) * m.resolution) ^ 2)
    {pos len : Vec K} (hok : RequestOk m pos len) (hx : 0 ≤ len.x) (hy : 0 ≤ len.y) (hpos : m.isInside pos = true)
    {p : Vec K} (hp : m.Covers p) (hpr : InRect pos len p) :
    ∃ r, fused other false ls
        (fun m' => inWindow m' pos len (inflated pop hyp ls ld radius computer o fun w => placeClear w ld thr p)) m = .ok r ∧
      (r = true → (∀ x, UnderRobot ρ p x → m.Covers x → InRect pos len x) → m.RobotFits ls ρ p) := by
  obtain ⟨m', e, sg, -, mc, mx, -⟩ := C33_merges_cell_by_cell hg hc hog hoc false false [ls] [ls] rfl (by simpa using hl) (by rw [hb]; simp)
  obtain ⟨m'', e', -, hown, -⟩ := C120_own hg hc hog hoc hl hb
  obtain rfl : m' = m'' := by rw [e] at e'; exact (Prod.mk.inj e').2
  have hcov : ∀ q, m'.Covers q ↔ m.Covers q := fun q => by unfold Covers; rw [sg.position, sg.length]
  obtain ⟨r, hr, h⟩ := C119_fits (m := m') (o := o) (ρ := ρ) (sg.geo hg) mc (ls := ls) ((mx ls).mpr (.inr (by simp))) ld
    (by rw [sg.resolution]; exact hn) hpop (by rw [sg.resolution]; exact hh) (by rw [sg.resolution]; exact ho) (by rw [sg.resolution]; exact hthr)
    (by rw [sg.resolution]; exact h1) (by rw [sg.resolution]; exact hρ)
    (pos := pos) (len := len) (by
      unfold RequestOk EpsOk at *
      rw [sg.resolution]
      exact hok) hx hy
    ((C11_inside_iff m' pos).mpr ((hcov _).mpr ((C11_inside_iff m pos).mp hpos))) ((hcov p).mpr hp) hpr
  refine ⟨r, ?_, fun hrt hin => hown _ _ (h hrt fun x hx hxc => hin x hx ((hcov x).mp hxc))⟩
  unfold fused
  rw [e]
  exact hr

variable {w : World K} {F : Fmt K} {rf : K → K}

/-- C120 on the machine, for grids of the same resolution that agree up to an eighth of a cell: every cost of a layer the map had before is afterwards what it
was, or a known cost of the other map less than a cell away. -/
theorem C120_from_either_machine_partial (hrd : DoublePrecision F.rd) (hF : IntsExact F.rd) (htop : 2 ^ 31 ≤ F.top) (hm : HeldI w F rf m)
    (ho : HeldI w F rf other) (hk : ∃ k, OnGrid (m.resolution / 8) m other k) {l : String} (hml : m.exists l = true) (hl : other.exists l = true)
    (hb : ∀ k ∈ m.basicLayers, m.exists k = true ∨ k = l) (overwrite : Bool) :
    ∃ m', (∀ rest, fusedI F.rd other overwrite l rest m = rest m') ∧ HeldI w F rf m' ∧ SameGeometry m m' ∧ m'.exists l = true ∧
      ∀ y c, m'.Clearly F.rd y → m'.atPositionI F.rd l y = .ok c → m.atPositionI F.rd l y = .ok c ∨
        ∃ x, other.Clearly F.rd x ∧ other.atPositionI F.rd l x = .ok c ∧ c ≠ NO_INFORMATION ∧ |x.x - y.x| ≤ 3 / 4 * m.resolution ∧
          |x.y - y.y| ≤ 3 / 4 * m.resolution := by
  classical
  obtain ⟨m', e, hm', sg, -, -, mx, h⟩ := merge_step hrd hF htop hm (m := m) ⟨rfl, rfl, rfl, rfl, rfl⟩ ho hk (ls := [l]) (by simpa using hl)
    (by simpa using hb) overwrite
  refine ⟨m', fun rest => ?_, hm', sg, (mx l).mpr (.inr (by simp)), fun y c hy hyc => ?_⟩
  · unfold Call.discard Act.bind at e
    unfold fusedI
    generalize addDataFromI F.rd other false overwrite false [l] m = q at e
    obtain ⟨r, t⟩ := q
    cases r <;> simp [Act.pure] at e ⊢
    rw [e]
  · have hw := held_inWorld hrd hF htop hm
    have how := held_inWorld hrd hF htop ho
    have hw' := held_inWorld hrd hF htop hm'
    have hpos := hw.geo.res_pos
    obtain ⟨-, -, -, -, hidx, hcl⟩ := same_machine (rd := F.rd) (m := m') (m' := m)
      ⟨sg.length.symm, sg.resolution.symm, sg.position.symm, sg.size.symm, sg.startIndex.symm⟩
    have hym := hcl y hy
    obtain ⟨tx, ty⟩ := tol_small hw.geo hw.tame43
    rw [clearly_at hrd hw'.geo hw'.tame hw'.small hy] at hyc
    rw [clearly_at hrd hw.geo hw.tame hw.small hym]
    rw [← hidx y] at hyc
    obtain ⟨i, q, ei, hi, hq, qx, qy⟩ := C74_containing_cell_partial hrd hw.geo hw.tame hym.inside hym.x hym.y
    rw [ei] at hyc ⊢
    obtain ⟨q', hq', -, -, cx, cy⟩ := centre_clearly hrd hw.geo hw.tame43 hw.small hi
    obtain rfl : q = q' := by rw [hq] at hq'; exact Option.some.inj hq'
    by_cases hsh : l ∈ [l] ∧ (overwrite = true ∨ ¬ m.ValidCell i) ∧ ∃ c, m.ShowsThere l i other c
    · obtain ⟨h1, h2, c', hs⟩ := hsh
      rw [(h l i hi).1 c' h1 h2 hs] at hyc
      cases hyc
      obtain ⟨k, j, hk, ⟨hj, hjl⟩, hjat, hne⟩ := hs
      obtain ⟨x, -, hxc, hxat, dx, dy⟩ := centre_clearly hrd how.geo how.tame43 how.small hj
      have kx := hk.x
      have ky := hk.y
      rw [hk.res, hjl] at dx dy
      have ax : ((m.logical i + k).x : K) = (m.logical i).x + k.x := by show (((m.logical i).x + k.x : Int) : K) = _; push_cast; rfl
      have ay : ((m.logical i + k).y : K) = (m.logical i).y + k.y := by show (((m.logical i).y + k.y : Int) : K) = _; push_cast; rfl
      rw [ax] at dx
      rw [ay] at dy
      refine .inr ⟨x, hxc, by rw [hxat, hjat], hne, ?_, ?_⟩
      · rw [abs_le] at *
        constructor <;> linarith [kx.1, kx.2, cx.1, cx.2, dx.1, dx.2, qx.1, qx.2]
      · rw [abs_le] at *
        constructor <;> linarith [ky.1, ky.2, cy.1, cy.2, dy.1, dy.2, qy.1, qy.2]
    · left
      rw [← (h l i hi).2 hsh hml]
      exact hyc

/-- C120 on the machine, the other way round, for grids as above, with or without overwriting: where the costs of the map and the known costs of the other map
near the position are below the threshold, a robot larger than the radius of inflation by four cells and a rounding error fits in the map, and one larger by six
cells and a rounding error fits in the other map, the answer of the merged map is "clear". -/
theorem C120_complete_machine_partial (hrd : DoublePrecision F.rd) (hF : IntsExact F.rd) (htop : 2 ^ 31 ≤ F.top) (hm : HeldI w F rf m)
    (hoth : HeldI w F rf other) (hk : ∃ k, OnGrid (m.resolution / 8) m other k) {ls : String} (hml : m.exists ls = true) (hl : other.exists ls = true)
    (hb : ∀ k ∈ m.basicLayers, m.exists k = true ∨ k = ls) (overwrite : Bool) (ld : String) (h0 : 0 ≤ radius)
    (htr : |F.rd (radius / m.resolution)| < F.top) (hn : ⌈F.rd (radius / m.resolution)⌉.toNat < 2 ^ 32 - 2) (hpop : PopOk pop)
    (hh : HypOk hyp ⌈F.rd (radius / m.resolution)⌉.toNat) (ho : UsedU F rf hyp computer m.resolution o) (thr : Cost)
    {pos len : Vec K} (hp : PointIn w.size pos) (hr : RequestOkRd F.rd m pos len) (hcen : CentreOkRd F.rd m pos len)
    {p : Vec K} (hpw : m.WellInWindow F.rd pos len p) (hpi : WellInside (m.resolution / 4) m p)
    (hlow : ∀ x v, m.Clearly F.rd x → |x.x - p.x| ≤ 5 / 8 * m.resolution → |x.y - p.y| ≤ 5 / 8 * m.resolution →
      m.atPositionI F.rd ls x = .ok v → v < thr)
    (holow : ∀ x v, other.Clearly F.rd x → |x.x - p.x| ≤ 11 / 8 * m.resolution → |x.y - p.y| ≤ 11 / 8 * m.resolution →
      other.atPositionI F.rd ls x = .ok v → v ≠ NO_INFORMATION → v < thr)
    (hfit : m.RobotFitsI F.rd ls (radius * (1 + 1 / 2 ^ 53) + 4 * m.resolution) p)
    (hofit : other.RobotFitsI F.rd ls (radius * (1 + 1 / 2 ^ 53) + 6 * m.resolution) p) :
    fusedI F.rd other overwrite ls (fun m' =>
        inWindowI F.rd m' pos len (inflatedI F rf pop hyp ls ld radius computer o fun w => placeClearI F.rd w ld thr p)) m = .ok true := by
  have hres := (held_inWorld hrd hF htop hm).geo.res_pos
  obtain ⟨m', e, hm', sg, hl', hfrom⟩ := C120_from_either_machine_partial hrd hF htop hm hoth hk hml hl hb overwrite
  have tolx : m'.tolX = m.tolX := by unfold tolX; rw [sg.size, sg.position, sg.resolution]
  have toly : m'.tolY = m.tolY := by unfold tolY; rw [sg.size, sg.position, sg.resolution]
  have hr' : RequestOkRd F.rd m' pos len :=
    ⟨by rw [sg.size, sg.resolution, sg.position]; exact hr.high_x, by rw [sg.size, sg.resolution, sg.position]; exact hr.high_y,
      by rw [sg.size, sg.resolution, sg.position]; exact hr.low_x, by rw [sg.size, sg.resolution, sg.position]; exact hr.low_y⟩
  have hcen' : CentreOkRd F.rd m' pos len :=
    ⟨by rw [sg.size, sg.resolution, sg.position, tolx]; exact hcen.map_x, by rw [sg.size, sg.resolution, sg.position, toly]; exact hcen.map_y,
      by rw [tolx]; exact hcen.high_x, by rw [toly]; exact hcen.high_y, by rw [tolx]; exact hcen.low_x, by rw [toly]; exact hcen.low_y⟩
  have hww : ∀ x, m'.WellInWindow F.rd pos len x ↔ m.WellInWindow F.rd pos len x := fun x => by unfold WellInWindow; rw [sg.resolution]
  obtain ⟨-, -, -, -, -, hcl⟩ := same_machine (rd := F.rd) (m := m') (m' := m)
    ⟨sg.length.symm, sg.resolution.symm, sg.position.symm, sg.size.symm, sg.startIndex.symm⟩
  rw [e]
  refine C119_complete_machine (m := m') hrd hF htop hm' hl' ld h0 (by rw [sg.resolution]; exact htr)
    (by rw [sg.resolution]; exact hn) hpop (by rw [sg.resolution]; exact hh) (by rw [sg.resolution]; exact ho) thr hp hr' hcen'
    ((hww p).mpr hpw) ⟨by rw [sg.position, sg.length, sg.resolution]; exact hpi.x, by rw [sg.position, sg.length, sg.resolution]; exact hpi.y⟩ ?_ ?_
  · intro y v hy d1 d2 hv
    rw [sg.resolution] at d1 d2
    rcases hfrom y v hy hv with h | ⟨x, hx, hxv, hne, d3, d4⟩
    · exact hlow y v (hcl y hy) d1 d2 h
    · refine holow x v hx ?_ ?_ hxv hne
      · rw [abs_le] at *; constructor <;> linarith [d1.1, d1.2, d3.1, d3.2]
      · rw [abs_le] at *; constructor <;> linarith [d2.1, d2.2, d4.1, d4.2]
  · intro y hyr hy hlet
    rw [sg.resolution] at hyr
    rcases hfrom y _ hy hlet with h | ⟨x, hx, hxv, -, d3, d4⟩
    · exact hfit y hyr (hcl y hy) h
    · refine hofit x ?_ hx hxv
      have hR : 0 ≤ radius * (1 + 1 / 2 ^ 53) + 4 * m.resolution := add_nonneg (mul_nonneg h0 (by positivity)) (by positivity)
      unfold UnderRobot at hyr ⊢
      have hd := offset_bound d3 d4 hyr hR (by linarith)
      rw [show (x.x - p.x) ^ 2 + (x.y - p.y) ^ 2 = (x.x - y.x + (y.x - p.x)) ^ 2 + (x.y - y.y + (y.y - p.y)) ^ 2 by ring]
      exact hd.trans (pow_le_pow_left₀ (by linarith) (by linarith) 2)

/-- C120 on the machine, for grids as above: the program that does not overwrite, with the layer as the map's only basic layer, answers "clear" only where the
robot fits in the map itself. -/
theorem C120_own_fits_machine_partial (hrd : DoublePrecision F.rd) (hF : IntsExact F.rd) (htop : 2 ^ 31 ≤ F.top) (hm : HeldI w F rf m)
    (hoth : HeldI w F rf other) (hk : ∃ k, OnGrid (m.resolution / 8) m other k) {ls : String} (hml : m.exists ls = true) (hl : other.exists ls = true)
    (hb : m.basicLayers = [ls]) (ld : String) (h0 : 0 ≤ radius)
    (htr : |F.rd (radius / m.resolution)| < F.top) (hn : ⌈F.rd (radius / m.resolution)⌉.toNat < 2 ^ 32 - 2) (hpop : PopOk pop)
    (hh : HypOk hyp ⌈F.rd (radius / m.resolution)⌉.toNat) (ho : UsedU F rf hyp computer m.resolution o) {n : Nat}
    (hnr : (n : K) * m.resolution ≤ radius * (1 - 1 / 2 ^ 53)) {thr : Cost}
    (hthr : ∀ i q, sqDist i q ≤ n * n → thr ≤ inflationCostRd rf hyp computer m.resolution i q) {ρ : K} (h2 : 2 ≤ n) (hρ0 : 0 ≤ ρ)
    (hρ : 2 * (ρ + m.resolution) ^ 2 ≤ (((n : K) - 2) * m.resolution) ^ 2)
    {pos len : Vec K} (hp : PointIn w.size pos) (hr : RequestOkRd F.rd m pos len) (hcen : CentreOkRd F.rd m pos len)
    {p : Vec K} (hpw : m.WellInWindow F.rd pos len p) (hpi : WellInside (m.resolution / 4) m p) :
    ∃ r, fusedI F.rd other false ls (fun m' =>
        inWindowI F.rd m' pos len (inflatedI F rf pop hyp ls ld radius computer o fun w => placeClearI F.rd w ld thr p)) m = .ok r ∧
      (r = true → (∀ x, UnderRobot ρ p x → m.Clearly F.rd x → m.WellInWindow F.rd pos len x) → m.RobotFitsI F.rd ls ρ p) := by
  obtain ⟨m', e, hm', sg, -, -, mx, h⟩ := merge_step hrd hF htop hm (m := m) ⟨rfl, rfl, rfl, rfl, rfl⟩ hoth hk (ls := [ls]) (by simpa using hl)
    (by rw [hb]; simp) false
  have e : ∀ rest, fusedI F.rd other false ls rest m = rest m' := fun rest => by
    unfold Call.discard Act.bind at e
    unfold fusedI
    generalize addDataFromI F.rd other false false false [ls] m = q at e
    obtain ⟨r, t⟩ := q
    cases r <;> simp [Act.pure] at e ⊢
    rw [e]
  have hl' : m'.exists ls = true := (mx ls).mpr (.inl hml)
  have hw := held_inWorld hrd hF htop hm
  have hw' := held_inWorld hrd hF htop hm'
  have tolx : m'.tolX = m.tolX := by unfold tolX; rw [sg.size, sg.position, sg.resolution]
  have toly : m'.tolY = m.tolY := by unfold tolY; rw [sg.size, sg.position, sg.resolution]
  have hr' : RequestOkRd F.rd m' pos len :=
    ⟨by rw [sg.size, sg.resolution, sg.position]; exact hr.high_x, by rw [sg.size, sg.resolution, sg.position]; exact hr.high_y,
      by rw [sg.size, sg.resolution, sg.position]; exact hr.low_x, by rw [sg.size, sg.resolution, sg.position]; exact hr.low_y⟩
  have hcen' : CentreOkRd F.rd m' pos len :=
    ⟨by rw [sg.size, sg.resolution, sg.position, tolx]; exact hcen.map_x, by rw [sg.size, sg.resolution, sg.position, toly]; exact hcen.map_y,
      by rw [tolx]; exact hcen.high_x, by rw [toly]; exact hcen.high_y, by rw [tolx]; exact hcen.low_x, by rw [toly]; exact hcen.low_y⟩
  have hww : ∀ x, m'.WellInWindow F.rd pos len x ↔ m.WellInWindow F.rd pos len x := fun x => by unfold WellInWindow; rw [sg.resolution]
  obtain ⟨-, -, -, -, hidx, hcl⟩ := same_machine (rd := F.rd) (m := m') (m' := m)
    ⟨sg.length.symm, sg.resolution.symm, sg.position.symm, sg.size.symm, sg.startIndex.symm⟩
  obtain ⟨-, -, -, -, -, hcl'⟩ := same_machine (rd := F.rd) sg
  obtain ⟨r, hr1, hrt⟩ := C119_fits_machine (m := m') (o := o) (ρ := ρ) hrd hF htop hm' hl' ld h0 (by rw [sg.resolution]; exact htr)
    (by rw [sg.resolution]; exact hn) hpop (by rw [sg.resolution]; exact hh) (by rw [sg.resolution]; exact ho) (by rw [sg.resolution]; exact hnr)
    (by rw [sg.resolution]; exact hthr) h2 hρ0 (by rw [sg.resolution]; exact hρ) hp hr' hcen'
    ((hww p).mpr hpw) ⟨by rw [sg.position, sg.length, sg.resolution]; exact hpi.x, by rw [sg.position, sg.length, sg.resolution]; exact hpi.y⟩
  refine ⟨r, by rw [e]; exact hr1, fun ht hin x hx hxc hlet => ?_⟩
  refine hrt ht (fun z hz hzc => (hww z).mpr (hin z hz (hcl z hzc))) x hx (hcl' x hxc) ?_
  rw [clearly_at hrd hw.geo hw.tame hw.small hxc] at hlet
  rw [clearly_at hrd hw'.geo hw'.tame hw'.small (hcl' x hxc), ← hidx x]
  obtain ⟨i, -, ei, hi, -⟩ := C74_containing_cell_partial hrd hw.geo hw.tame hxc.inside hxc.x hxc.y
  rw [ei] at hlet ⊢
  rw [(h ls i hi).2 (fun ⟨_, hv, _⟩ => hv.elim (by simp) fun hv => hv
    ⟨by rw [hb]; simp, fun k hk => by rw [hb, List.mem_singleton] at hk; subst hk; exact ⟨_, hlet, by decide⟩⟩) hml, hlet]

end

open Demo in
/-- The free map of small cells and the map with the pillar at (-1, 0), not aligned: after merging, "clear" at (2, 0). -/
example : fused pillar true "s" (fun m' => inWindow m' ⟨1, 0⟩ ⟨4, 4⟩ (inflated pop hyp "s" "t" (1 / 2) (fun _ => 253) Inflater.new fun w =>
    placeClear w "t" 253 ⟨2, 0⟩)) fine = .ok true := by
  have h1 : radiusInCells (1 / 2) fine.resolution = 1 := by decide +kernel
  have hpc : ∀ q ∈ colMajor 5 5, ∀ c ∈ pillar.getPosition q,
      (pillar.at "s" q = .ok LETHAL_OBSTACLE → c.x ≤ -1) ∧ (pillar.at "s" q = .ok LETHAL_OBSTACLE ∨ pillar.at "s" q = .ok 0) := by decide +kernel
  have hfc : ∀ q ∈ colMajor 12 12, fine.at "s" q = .ok 0 := by decide +kernel
  have hcell : ∀ y c, pillar.atPosition "s" y = .ok c → (c = LETHAL_OBSTACLE → y.x ≤ -1 / 2) ∧ (c = LETHAL_OBSTACLE ∨ c = 0) := by
    intro y c hc
    have hin : pillar.isInside y = true := by
      by_contra h'
      rw [atPosition_outside (by simpa using h')] at hc
      cases hc
    obtain ⟨hi, q, hq, hsq⟩ := (C11_containing_cell pillar_geo y).2 ((C11_inside_iff pillar y).mp hin)
    rw [C13_read_containing_cell pillar_geo hq hsq "s"] at hc
    obtain ⟨g1, g2⟩ := hpc _ (mem_colMajor.mpr (by
      rw [show pillar.size = ⟨5, 5⟩ from by decide +kernel] at hi
      unfold Idx.In at hi
      simp only at hi
      omega)) q hq
    rw [show pillar.resolution = 1 from by decide +kernel] at hsq
    constructor
    · rintro rfl
      have := g1 hc
      linarith [hsq.1.2]
    · rcases g2 with g | g <;> rw [hc] at g <;> cases g <;> simp
  refine C120_complete (v := 0) fine_geo fine_coherent pillar_geo pillar_coherent (ls := "s") (by decide +kernel) (by decide +kernel) (by decide +kernel)
    true "t" (by rw [h1]; norm_num) pop_ok (by rw [h1]; exact hyp_ok _) .new 253 (by unfold RequestOk; decide +kernel) (by norm_num) (by norm_num)
    (by decide +kernel) (by unfold InRect; norm_num) (by decide +kernel) (by decide) ?_ ?_ ?_
  · intro y c d1 _ hc _
    obtain ⟨g1, rfl | rfl⟩ := hcell y c hc
    · have := g1 rfl
      rw [show fine.resolution = 1 / 2 from by decide +kernel] at d1
      have := (abs_le.mp d1).1
      norm_num at this
      linarith
    · decide
  · intro x _ hlet
    have hin : fine.isInside x = true := by
      by_contra h'
      rw [atPosition_outside (by simpa using h')] at hlet
      cases hlet
    obtain ⟨hi, q, hq, hsq⟩ := (C11_containing_cell fine_geo x).2 ((C11_inside_iff fine x).mp hin)
    rw [C13_read_containing_cell fine_geo hq hsq "s", hfc _ (mem_colMajor.mpr (by
      rw [show fine.size = ⟨12, 12⟩ from by decide +kernel] at hi
      unfold Idx.In at hi
      simp only at hi
      omega))] at hlet
    cases hlet
  · intro x hx hlet
    have := (hcell x _ hlet).1 rfl
    rw [h1, show fine.resolution = 1 / 2 from by decide +kernel] at hx
    unfold UnderRobot at hx
    norm_num at hx
    nlinarith [sq_nonneg x.y]

open Demo in
/-- On the machine: the row that was moved down takes the costs of the row before it was moved; afterwards, "clear" at (1.68, 1). -/
example (overwrite : Bool) : fusedI toDouble quarterRow overwrite "a" (fun m' => inWindowI toDouble m' ⟨9 / 10, 1⟩ ⟨17 / 10, 2 / 10⟩
      (inflatedI binary64 toFloat pop (fun i j => toFloat (hypot i j)) "a" "t" 0 (fun _ => 253) Inflater.new fun w =>
        placeClearI toDouble w "t" 253 ⟨168 / 100, 1⟩)) quarterRowMoved = .ok true := by
  have hn : ⌈binary64.rd (0 / quarterRowMoved.resolution)⌉.toNat = 0 := by decide +kernel
  have hw := held_inWorld (F := binary64) toDouble_precision toDouble_ints top64 quarterRowMoved_held
  have ho := held_inWorld (F := binary64) toDouble_precision toDouble_ints top64 quarterRow_held
  have hres : quarterRowMoved.resolution = 1 / 4 := by decide +kernel
  have hres' : quarterRow.resolution = 1 / 4 := by decide +kernel
  have htx : quarterRowMoved.tolX ≤ 1 / 100 := by decide +kernel
  have htx' : quarterRow.tolX ≤ 1 / 100 := by decide +kernel
  have cells : ∀ q ∈ colMajor 9 1, ∀ c ∈ quarterRow.getPositionRd toDouble q,
    (quarterRow.at "a" q = .ok LETHAL_OBSTACLE → c.x = 0) ∧ (c.x ≤ 0 ∨ quarterRow.at "a" q = .ok 0) := by decide +kernel
  have mem : ∀ {q : Idx}, q.In quarterRow.size → q ∈ colMajor 9 1 := fun {q} h => mem_row (by
    rwa [show quarterRowMoved.size = quarterRow.size from by decide +kernel])
  refine C120_complete_machine_partial (F := binary64) (rf := toFloat) (radius := 0) (computer := fun _ => 253)
    toDouble_precision toDouble_ints top64 quarterRowMoved_held quarterRow_held ⟨⟨1, 0⟩, by decide +kernel, by decide +kernel, by decide +kernel⟩
    (ls := "a") (by decide +kernel) (by decide +kernel) (by decide +kernel) overwrite "t" (by norm_num)
    (by decide +kernel) (by rw [hn]; norm_num) pop_ok (by rw [hn]; exact (C91_hypot hypot_ok _).2 (by norm_num)) .new 253
    (by unfold PointIn; decide +kernel)
    ⟨by unfold CornerOk; decide +kernel, by unfold CornerOk; decide +kernel, by unfold CornerOk; decide +kernel, by unfold CornerOk; decide +kernel⟩
    ⟨by decide +kernel, by decide +kernel, by decide +kernel, by decide +kernel, by decide +kernel, by decide +kernel⟩
    ⟨⟨by decide +kernel, by decide +kernel⟩, by decide +kernel, by decide +kernel⟩ ⟨by decide +kernel, by decide +kernel⟩ ?_ ?_ ?_ ?_
  · intro x v hx d1 _ hv
    rw [clearly_at (rd := binary64.rd) toDouble_precision hw.geo hw.tame hw.small hx] at hv
    obtain ⟨q, c, e, hq, hc, c1, -⟩ := C74_containing_cell_partial (rd := binary64.rd) toDouble_precision hw.geo hw.tame hx.inside hx.x hx.y
    rw [e] at hv
    rcases (quarterRowMoved_cells q (mem_row hq) c hc).2 with h | h
    · rw [hres, abs_le] at d1 c1
      norm_num at d1
      linarith [d1.1, c1.2]
    · rw [h] at hv
      cases hv
      decide
  · intro x v hx d1 _ hv _
    rw [clearly_at (rd := binary64.rd) toDouble_precision ho.geo ho.tame ho.small hx] at hv
    obtain ⟨q, c, e, hq, hc, c1, -⟩ := C74_containing_cell_partial (rd := binary64.rd) toDouble_precision ho.geo ho.tame hx.inside hx.x hx.y
    rw [e] at hv
    rcases (cells q (mem hq) c hc).2 with h | h
    · rw [hres'] at c1
      rw [hres] at d1
      rw [abs_le] at d1 c1
      norm_num at d1
      linarith [d1.1, c1.2]
    · rw [h] at hv
      cases hv
      decide
  · intro x hx hxc hlet
    obtain ⟨q, c, hc, hl, c1, -⟩ := lethal_centreI (rd := binary64.rd) toDouble_precision hw.geo hw.tame43 hw.small hxc hlet
    have h0 := (quarterRowMoved_cells q (mem_row (getPositionRd_in hc)) c hc).1 hl
    rw [h0, hres] at c1
    rw [hres] at hx
    unfold UnderRobot at hx
    norm_num at hx
    have := (abs_le.mp c1).1
    nlinarith [sq_nonneg (x.y - 1)]
  · intro x hx hxc hlet
    obtain ⟨q, c, hc, hl, c1, -⟩ := lethal_centreI (rd := binary64.rd) toDouble_precision ho.geo ho.tame43 ho.small hxc hlet
    have h0 := (cells q (mem (getPositionRd_in hc)) c hc).1 hl
    rw [h0, hres'] at c1
    rw [hres] at hx
    unfold UnderRobot at hx
    norm_num at hx
    have := (abs_le.mp c1).1
    nlinarith [sq_nonneg (x.y - 1)]

open Demo in
/-- The map with the pillar, into which the free map is merged without overwriting: a robot of 0.2 at (-0.4, 0) touches the pillar, and is found not to fit. -/
example : fused fine false "s" (fun m' => inWindow m' ⟨-4 / 10, 1 / 10⟩ ⟨3, 3⟩ (inflated pop hyp "s" "t" 2 (fun _ => 253) Inflater.new fun w =>
    placeClear w "t" 253 ⟨-4 / 10, 0⟩)) (pillar.setBasicLayers ["s"]) = .ok false := by
  have h2 : radiusInCells 2 (pillar.setBasicLayers ["s"]).resolution = 2 := by decide +kernel
  obtain ⟨r, h1, h⟩ := C120_own_fits (m := pillar.setBasicLayers ["s"]) (other := fine) (radius := 2) (computer := fun _ => 253) (thr := 253) (ρ := 2 / 10)
    ⟨by decide +kernel, by decide +kernel, by decide +kernel, by decide +kernel, by decide +kernel, by decide +kernel⟩
    ⟨pillar_coherent.nodup, pillar_coherent.mem_iff, pillar_coherent.dims⟩ fine_geo fine_coherent (ls := "s") (by decide +kernel) rfl "t" (by rw [h2]; norm_num) pop_ok
    (by rw [h2]; exact hyp_ok _) .new (fun _ _ => UInt8.le_refl _) (by rw [h2]; norm_num) (by rw [h2]; decide +kernel)
    (pos := ⟨-4 / 10, 1 / 10⟩) (len := ⟨3, 3⟩) (by unfold RequestOk; decide +kernel) (by norm_num) (by norm_num) (by decide +kernel)
    (p := ⟨-4 / 10, 0⟩) (by unfold Covers; decide +kernel) (by unfold InRect; norm_num)
  cases r
  · exact h1
  · refine absurd (h rfl (fun x hx _ => ?_) ⟨-55 / 100, 0⟩ (by unfold UnderRobot; norm_num)) ?_
    · unfold UnderRobot at hx
      simp only at hx
      have e1 := abs_le.mp (abs_le_of_sq_le_sq (show (x.x - -4 / 10) ^ 2 ≤ (2 / 10) ^ 2 by nlinarith [sq_nonneg (x.y - 0)]) (by norm_num))
      have e2 := abs_le.mp (abs_le_of_sq_le_sq (show (x.y - 0) ^ 2 ≤ (2 / 10) ^ 2 by nlinarith [sq_nonneg (x.x - -4 / 10)]) (by norm_num))
      unfold InRect
      simp only
      exact ⟨⟨by linarith [e1.1], by linarith [e1.2]⟩, by linarith [e2.1], by linarith [e2.2]⟩
    · rw [not_not]
      decide +kernel

namespace Demo

/-- The row that was moved, with its layer as basic layer. -/
def basicRow : CostMap ℚ := quarterRowMoved.setBasicLayers ["a"]

theorem basicRow_held : HeldI hundred binary64 toFloat basicRow := .returned (.plain (.setBasicLayers ["a"])) quarterRowMoved_held trivial rfl

/-- The row without its obstacle. -/
def freeRow : CostMap ℚ := (CostMap.add "a" (Mat.ofFn 9 1 fun _ _ => 0) quarterRowEmpty).2

theorem freeRow_held : HeldI hundred binary64 toFloat freeRow := by
  refine .returned (.plain (.add "a" (Mat.ofFn 9 1 fun _ _ => 0))) (m := quarterRowEmpty) ?_ trivial (ok_pair (by decide +kernel))
  exact .new (ls := []) (.setGeometry ⟨9 / 4, 1 / 4⟩ (1 / 4) ⟨1, 1⟩) (by simp) trivial
    ⟨by decide +kernel, by decide +kernel, by decide +kernel, by decide +kernel, by decide +kernel, by unfold PointIn; decide +kernel⟩
    (ok_pair (by decide +kernel))

end Demo

open Demo in
/-- On the machine: the moved row, into which the free row is merged without overwriting. A robot of 0.1 at (0.2, 1) touches the obstacle at x = 0, and is found
not to fit. -/
example : fusedI toDouble freeRow false "a" (fun m' => inWindowI toDouble m' ⟨9 / 10, 1⟩ ⟨19 / 10, 1⟩
      (inflatedI binary64 toFloat pop (fun i j => toFloat (hypot i j)) "a" "t" (13 / 10) (fun _ => 253) Inflater.new fun w =>
        placeClearI toDouble w "t" 253 ⟨2 / 10, 1⟩)) basicRow = .ok false := by
  have hn : ⌈binary64.rd (13 / 10 / basicRow.resolution)⌉.toNat = 6 := by decide +kernel
  obtain ⟨r, h1, h2⟩ := C120_own_fits_machine_partial (F := binary64) (rf := toFloat) (radius := 13 / 10) (computer := fun _ => 253) (thr := 253)
    (n := 5) (ρ := 1 / 10) toDouble_precision toDouble_ints top64 basicRow_held freeRow_held
    ⟨⟨1, 0⟩, by decide +kernel, by decide +kernel, by decide +kernel⟩ (ls := "a") (by decide +kernel) (by decide +kernel) rfl "t" (by norm_num)
    (by decide +kernel) (by rw [hn]; norm_num) pop_ok (by rw [hn]; exact (C91_hypot hypot_ok _).2 (by norm_num)) .new
    (by decide +kernel) (fun _ _ _ => UInt8.le_refl _) (by norm_num) (by norm_num) (by decide +kernel)
    (pos := ⟨9 / 10, 1⟩) (len := ⟨19 / 10, 1⟩) (by unfold PointIn; decide +kernel)
    ⟨by unfold CornerOk; decide +kernel, by unfold CornerOk; decide +kernel, by unfold CornerOk; decide +kernel, by unfold CornerOk; decide +kernel⟩
    ⟨by decide +kernel, by decide +kernel, by decide +kernel, by decide +kernel, by decide +kernel, by decide +kernel⟩
    (p := ⟨2 / 10, 1⟩) ⟨⟨by decide +kernel, by decide +kernel⟩, by decide +kernel, by decide +kernel⟩ ⟨by decide +kernel, by decide +kernel⟩
  cases r
  · exact h1
  · have cl : basicRow.isInsideRd toDouble ⟨11 / 100, 1⟩ = true ∧ basicRow.position.x - basicRow.length.x / 2 + basicRow.tolX ≤ 11 / 100 ∧
      basicRow.position.y - basicRow.length.y / 2 + basicRow.tolY ≤ 1 := by decide +kernel
    refine absurd (h2 rfl (fun x hx _ => ?_) ⟨11 / 100, 1⟩ (by unfold UnderRobot; norm_num) ⟨cl.1, cl.2.1, cl.2.2⟩) ?_
    · unfold UnderRobot at hx
      simp only at hx
      have e1 := abs_le.mp (abs_le_of_sq_le_sq (show (x.x - 2 / 10) ^ 2 ≤ (1 / 10) ^ 2 by nlinarith [sq_nonneg (x.y - 1)]) (by norm_num))
      have e2 := abs_le.mp (abs_le_of_sq_le_sq (show (x.y - 1) ^ 2 ≤ (1 / 10) ^ 2 by nlinarith [sq_nonneg (x.x - 2 / 10)]) (by norm_num))
      have l1 : (lowRd binary64.rd (⟨9 / 10, 1⟩ : Vec ℚ) ⟨19 / 10, 1⟩).x + basicRow.resolution / 4 ≤ 5 / 100 := by decide +kernel
      have l2 : (1 : ℚ) ≤ (highRd binary64.rd (⟨9 / 10, 1⟩ : Vec ℚ) ⟨19 / 10, 1⟩).x - basicRow.resolution / 4 := by decide +kernel
      have l3 : (lowRd binary64.rd (⟨9 / 10, 1⟩ : Vec ℚ) ⟨19 / 10, 1⟩).y + basicRow.resolution / 4 ≤ 8 / 10 := by decide +kernel
      have l4 : (12 / 10 : ℚ) ≤ (highRd binary64.rd (⟨9 / 10, 1⟩ : Vec ℚ) ⟨19 / 10, 1⟩).y - basicRow.resolution / 4 := by decide +kernel
      exact ⟨⟨l1.trans (by linarith [e1.1]), le_trans (by linarith [e1.2]) l2⟩, l3.trans (by linarith [e2.1]), le_trans (by linarith [e2.2]) l4⟩
    · rw [not_not]
      decide +kernel

end CostMapModel

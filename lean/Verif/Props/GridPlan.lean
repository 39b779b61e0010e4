import Verif.Model.GridPlan
import Verif.Spec.GridPlan
import Verif.Props.Occupancy
import Verif.Props.PlaceCheck
import Verif.Props.Window
import Verif.Props.Rebase
import Verif.Props.MachineRebase
import Verif.Props.MachinePlace
import Verif.Props.MachineConversions
import Verif.Props.MachineBundle

/-! # C124: planning with an occupancy grid of an inflated layer -/

set_option linter.unusedSectionVars false

namespace CostMapModel
open Inflation CostMap

/-- The values below inscribed are those of the costs below inscribed. -/
theorem free_iff (c : Cost) : 0 ≤ occupancyOf c ∧ occupancyOf c < 99 ↔ c < INSCRIBED_OBSTACLE :=
  forall_cost (P := fun c => 0 ≤ occupancyOf c ∧ occupancyOf c < 99 ↔ c < INSCRIBED_OBSTACLE) (by decide +kernel) c

section
variable {K : Type} [Field K] [LinearOrder K] [IsStrictOrderedRing K] [FloorRing K]
variable {rf : K → K} {pop : Pop K} {hyp : Nat → Nat → K} {computer : K → Cost} {radius : K} {o : Inflater K} {m : CostMap K}

/-- The grid shows the inflated layer. -/
theorem grid_spec (hg : m.Geo) (hc : m.Coherent) (hs : m.startIndex = ⟨0, 0⟩) (ht : m.timestamp < 2 ^ 32 * 1000000000) (hrf : rf m.resolution = m.resolution)
    (ld : String) {ls : String} {st' : Inflation K} (e : inflate pop hyp ls ld radius computer ⟨o, m, []⟩ = (.ok (), st'))
    (sg : SameGeometry m st'.map) (sm : SameMeta m st'.map) (hl : st'.map.layers = (if m.exists ld then m.layers else m.layers ++ [ld])) (old : List Int) :
    ∃ g, inflatedGrid rf pop hyp ls ld radius computer o old m = .ok g ∧ g.frameId = m.frameId ∧ ∀ i q p, m.getPosition i = some q →
      InsideSquare p q m.resolution → m.isInside p = true ∧ ∃ v, st'.map.atPosition ld p = .ok v ∧ g.valueAt p = some (occupancyOf v) := by
  have cc : st'.map.Coherent := by
    have := inflate_keeps (P := CostMap.Coherent) (ls := ls) (ld := ld) coherent_stable pop hyp radius computer ⟨o, m, []⟩ hc
    rw [e] at this
    exact this
  have hex : st'.map.exists ld = true := by
    refine (cc.mem_iff ld).mp ?_
    rw [hl]
    split
    next h => exact (hc.mem_iff ld).mpr h
    next => simp
  have hg' := sg.geo hg
  obtain ⟨g, h1, h2⟩ := C51_placed_by_position_partial rf hg' cc (by rw [sg.startIndex, hs]; rfl) hex (by rw [sm.timestamp]; exact ht)
    (by rw [sg.resolution]; exact hrf) old
  have hf : g.frameId = m.frameId := by
    obtain ⟨g', h1', h3, -⟩ := C51_header rf hg' cc hex (by rw [sm.timestamp]; exact ht) old
    rw [h1] at h1'
    rw [Res.ok.inj h1', h3, sm.frameId]
  refine ⟨g, by unfold inflatedGrid; rw [e]; exact h1, hf, fun i q p hq hp => ?_⟩
  obtain ⟨v, v1, v2⟩ := h2 i q p (by rw [getPosition_congr sg, hq]) (by rw [sg.resolution]; exact hp)
  refine ⟨?_, v, v1, v2⟩
  by_contra h'
  rw [atPosition_outside (by unfold CostMap.isInside at h' ⊢; rw [sg.length, sg.position]; simpa using h')] at v1
  cases v1

/-- C124. A layer is inflated and published as an occupancy grid. A reader of the grid finds a value inside every cell, and if it is known and below that of inscribed
cells, the robot touches no obstacle of the map. -/
theorem C124_fits_partial (hg : m.Geo) (hc : m.Coherent) (hs : m.startIndex = ⟨0, 0⟩) (ht : m.timestamp < 2 ^ 32 * 1000000000)
    (hrf : rf m.resolution = m.resolution) {ls : String} (hls : m.exists ls = true) (ld : String)
    (hn : radiusInCells radius m.resolution < 2 ^ 32 - 1) (hpop : PopOk pop)
    (hh : HypOk hyp (radiusInCells radius m.resolution)) (ho : Used hyp computer m.resolution o)
    (hthr : ∀ d, d ≤ m.resolution * (radiusInCells radius m.resolution : K) → INSCRIBED_OBSTACLE ≤ computer d) {ρ : K}
    (h1 : 1 ≤ radiusInCells radius m.resolution) (hρ : 2 * ρ ^ 2 ≤ (((radiusInCells radius m.resolution : K) - 1) * m.resolution) ^ 2) (old : List Int) :
    ∃ g, inflatedGrid rf pop hyp ls ld radius computer o old m = .ok g ∧ g.frameId = m.frameId ∧
      ∀ i q p, m.getPosition i = some q → InsideSquare p q m.resolution → (∃ v, g.valueAt p = some v) ∧ (g.SaysFree p → m.RobotFits ls ρ p) := by
  obtain ⟨st', e, sg, sm, hl, -⟩ := C38_only_near_obstacles hc hg.res_pos hls ld hn hpop hh ho []
  obtain ⟨st'', e', h⟩ := C116_fits hg hc hs hls ld hn hpop hh ho [] hthr h1 hρ
  obtain rfl : st' = st'' := by rw [e] at e'; exact (Prod.mk.inj e').2
  obtain ⟨g, g1, gf, g2⟩ := grid_spec (rf := rf) hg hc hs ht hrf ld e sg sm hl old
  refine ⟨g, g1, gf, fun i q p hq hp => ?_⟩
  obtain ⟨hin, v, v1, v2⟩ := g2 i q p hq hp
  refine ⟨⟨_, v2⟩, fun ⟨u, u1, u2⟩ => ?_⟩
  obtain ⟨r, hr, hrt⟩ := h p hin
  refine hrt ?_
  rw [v2] at u1
  rw [← Option.some.inj u1] at u2
  unfold placeClear at hr
  rw [v1] at hr
  have := Res.ok.inj hr
  rw [← this]
  exact decide_eq_true ((free_iff v).mp u2)

/-- C124, the other way round: inside a cell whose cost is below inscribed, where a robot with a margin of a cell fits, the grid says free. -/
theorem C124_complete_partial (hg : m.Geo) (hc : m.Coherent) (hs : m.startIndex = ⟨0, 0⟩) (ht : m.timestamp < 2 ^ 32 * 1000000000)
    (hrf : rf m.resolution = m.resolution) {ls : String} (hls : m.exists ls = true) (ld : String)
    (hn : radiusInCells radius m.resolution < 2 ^ 32 - 1) (hpop : PopOk pop)
    (hh : HypOk hyp (radiusInCells radius m.resolution)) (ho : Used hyp computer m.resolution o) (old : List Int) :
    ∃ g, inflatedGrid rf pop hyp ls ld radius computer o old m = .ok g ∧
      ∀ i q p v, m.getPosition i = some q → InsideSquare p q m.resolution → m.atPosition ls p = .ok v → v < INSCRIBED_OBSTACLE →
        m.RobotFits ls (((radiusInCells radius m.resolution : K) + 1) * m.resolution) p → g.SaysFree p := by
  obtain ⟨st', e, sg, sm, hl, -⟩ := C38_only_near_obstacles hc hg.res_pos hls ld hn hpop hh ho []
  obtain ⟨st'', e', h⟩ := C116_complete hg hc hs hls ld hn hpop hh ho [] INSCRIBED_OBSTACLE
  obtain rfl : st' = st'' := by rw [e] at e'; exact (Prod.mk.inj e').2
  obtain ⟨g, g1, -, g2⟩ := grid_spec (rf := rf) hg hc hs ht hrf ld e sg sm hl old
  refine ⟨g, g1, fun i q p v hq hp hv hlt hfit => ?_⟩
  obtain ⟨-, u, u1, u2⟩ := g2 i q p hq hp
  refine ⟨_, u2, (free_iff u).mpr ?_⟩
  have := h p v hv hlt hfit
  unfold placeClear at this
  rw [u1] at this
  exact of_decide_eq_true (Res.ok.inj this)

/-- The copy with the frame and the time of the map: its cells are those of the map, in another order of the indices. -/
theorem copy_spec (hg : m.Geo) (hc : m.Coherent) : ∃ n, rebase m = (.ok (), n) ∧ ∃ n', n' = (n.setFrameId m.frameId).setTimestamp m.timestamp ∧
    n'.Geo ∧ n'.Coherent ∧ n'.startIndex = ⟨0, 0⟩ ∧ n'.resolution = m.resolution ∧ n'.timestamp = m.timestamp ∧ n'.frameId = m.frameId ∧
    (∀ l, n'.exists l = m.exists l) ∧ (∀ l p, m.exists l = true → n'.atPosition l p = m.atPosition l p) ∧
    ∀ i q, m.getPosition i = some q → ∃ j, n'.getPosition j = some q := by
  obtain ⟨n, e, ng, nc, ns, nz, nl, nr, np, nx, ni, nat⟩ := C115_same hg hc
  refine ⟨n, e, _, rfl, ⟨ng.1, ng.2, ng.3, ng.4, ng.5, ng.6⟩, ⟨nc.1, nc.2, nc.3⟩, ns, nr, rfl, rfl, nx, nat, fun i q hq => ?_⟩
  have hi : i.In m.size := by
    by_contra h
    rw [getPosition_none h] at hq
    cases hq
  rw [getPosition_eq hi] at hq
  refine ⟨unwrapIdx i m.size m.startIndex, ?_⟩
  show n.getPosition _ = _
  have hj : (unwrapIdx i m.size m.startIndex).In n.size := by rw [nz]; exact unwrapIdx_in hi hg.start
  rw [getPosition_eq hj, ns, ← hq]
  have h0 : ∀ a s : Idx, unwrapIdx a s ⟨0, 0⟩ = a := fun a s => by unfold unwrapIdx; exact if_pos rfl
  rw [h0]
  simp [center, nl, nr, np]

/-- C124 for every map, moved or not, if the program makes a copy first. -/
theorem C124_moved (hg : m.Geo) (hc : m.Coherent) (ht : m.timestamp < 2 ^ 32 * 1000000000)
    (hrf : rf m.resolution = m.resolution) {ls : String} (hls : m.exists ls = true) (ld : String)
    (hn : radiusInCells radius m.resolution < 2 ^ 32 - 1) (hpop : PopOk pop)
    (hh : HypOk hyp (radiusInCells radius m.resolution)) (ho : Used hyp computer m.resolution o)
    (hthr : ∀ d, d ≤ m.resolution * (radiusInCells radius m.resolution : K) → INSCRIBED_OBSTACLE ≤ computer d) {ρ : K}
    (h1 : 1 ≤ radiusInCells radius m.resolution) (hρ : 2 * ρ ^ 2 ≤ (((radiusInCells radius m.resolution : K) - 1) * m.resolution) ^ 2) (old : List Int) :
    ∃ g, copiedGrid rf pop hyp ls ld radius computer o old m = .ok g ∧ g.frameId = m.frameId ∧
      ∀ i q p, m.getPosition i = some q → InsideSquare p q m.resolution → (∃ v, g.valueAt p = some v) ∧ (g.SaysFree p → m.RobotFits ls ρ p) ∧
        ∀ v, m.atPosition ls p = .ok v → v < INSCRIBED_OBSTACLE →
          m.RobotFits ls (((radiusInCells radius m.resolution : K) + 1) * m.resolution) p → g.SaysFree p := by
  obtain ⟨n, e, n', rfl, ng, nc, ns, nr, nt, nf, nx, nat, npos⟩ := copy_spec hg hc
  generalize en : (n.setFrameId m.frameId).setTimestamp m.timestamp = n' at *
  have hfit : ∀ {p ρ}, n'.RobotFits ls ρ p ↔ m.RobotFits ls ρ p := fun {p ρ} =>
    ⟨fun h x hx => by rw [← nat ls x hls]; exact h x hx, fun h x hx => by rw [nat ls x hls]; exact h x hx⟩
  have hls' : n'.exists ls = true := by rw [nx, hls]
  rw [← nr] at hn hh ho hthr h1 hρ hrf
  rw [← nt] at ht
  obtain ⟨g, g1, gf, g2⟩ := C124_fits_partial (rf := rf) ng nc ns ht hrf hls' ld hn hpop hh ho hthr h1 hρ old
  obtain ⟨g', g1', g3⟩ := C124_complete_partial (rf := rf) ng nc ns ht hrf hls' ld hn hpop hh ho old
  obtain rfl : g = g' := by rw [g1] at g1'; exact Res.ok.inj g1'
  refine ⟨g, by unfold copiedGrid; rw [e]; simp only; rw [en]; exact g1, by rw [gf, nf], fun i q p hq hp => ?_⟩
  obtain ⟨j, hj⟩ := npos i q hq
  rw [← nr] at hp ⊢
  obtain ⟨a, b⟩ := g2 j q p hj hp
  exact ⟨a, fun h => hfit.mp (b h), fun v hv hlt h => g3 j q p v hj hp (by rw [nat ls p hls]; exact hv) hlt (hfit.mpr h)⟩

end

section
variable {K : Type} [Field K] [LinearOrder K] [IsStrictOrderedRing K] [FloorRing K]
variable {w : World K} {F : Fmt K} {rf : K → K} {pop : Pop K} {hyp : Nat → Nat → K} {computer : K → Cost} {radius : K} {o : Inflater K} {m : CostMap K}

/-- On the machine the grid shows the inflated layer. -/
theorem grid_machine (hrd : DoublePrecision F.rd) (hF : IntsExact F.rd) (htop : 2 ^ 31 ≤ F.top) (hm : HeldI w F rf m)
    (hs : m.startIndex = ⟨0, 0⟩) (hcells : m.size.x * m.size.y < 2 ^ 31) (ht : m.timestamp < 2 ^ 32 * 1000000000)
    (hrf : |rf m.resolution - m.resolution| ≤ m.resolution / 2 ^ 24) {ls : String} (hls : m.exists ls = true) (ld : String) (h0 : 0 ≤ radius)
    (hrw : radius ≤ w.size)
    (htr : |F.rd (radius / m.resolution)| < F.top) (hn : ⌈F.rd (radius / m.resolution)⌉.toNat < 2 ^ 32 - 2) (hpop : PopOk pop)
    (hh : HypOk hyp ⌈F.rd (radius / m.resolution)⌉.toNat) (ho : UsedU F rf hyp computer m.resolution o) (old : List Int) {st' : Inflation K}
    (e : inflateU F rf pop hyp ls ld (.fin radius) computer ⟨o, m, []⟩ = (.ok (), st')) :
    ∃ g, inflatedGridI F rf pop hyp ls ld radius computer o old m = .ok g ∧ g.frameId = m.frameId ∧
      ∀ i p, i.In m.size → |p.x - (m.idealCentre i).x| ≤ m.resolution / 2 - m.gridTolX → |p.y - (m.idealCentre i).y| ≤ m.resolution / 2 - m.gridTolY →
        ∃ v, st'.map.atPositionI F.rd ld p = .ok v ∧ ∀ rq, DoublePrecision rq → g.valueAtRd rq p = some (occupancyOf v) := by
  have iw := held_inWorld hrd hF htop hm
  have hX : m.size.x < 2 ^ 31 := lt_of_le_of_lt iw.small.x (by norm_num)
  have hY : m.size.y < 2 ^ 31 := lt_of_le_of_lt iw.small.y (by norm_num)
  obtain ⟨st'', e', sg, sm, hl, -⟩ := C94_reach_partial hF hrd iw.coherent hX hY iw.geo.res_pos hls ld h0 htr hn hpop hh ho []
  obtain rfl : st' = st'' := by rw [e] at e'; exact (Prod.mk.inj e').2
  have held : HeldI w F rf st'.map := by
    refine .returned (.inflate o pop hyp ls ld radius computer) hm ⟨h0, hrw, hpop, hh, ho⟩ ?_
    show (_, _) = _
    rw [e]
  have cc := (held_inWorld hrd hF htop held).coherent
  have hex : st'.map.exists ld = true := by
    refine (cc.mem_iff ld).mp ?_
    rw [hl]
    split
    next h => exact (iw.coherent.mem_iff ld).mpr h
    next => simp
  obtain ⟨g, g1, gf, -, -, -, g2⟩ := C108_history_occupancy_partial hrd hF htop held hex (by rw [sg.startIndex, hs]; rfl)
    (by rw [sg.size]; exact hcells) (by rw [sm.timestamp]; exact ht) (by rw [sg.resolution]; exact hrf) old
  refine ⟨g, by unfold inflatedGridI; rw [e]; exact g1, by rw [gf, sm.frameId], fun i p hi hx hy => ?_⟩
  have hide : st'.map.idealCentre i = m.idealCentre i := by unfold idealCentre; rw [sg.position, sg.size, sg.resolution]
  have htx : st'.map.gridTolX = m.gridTolX := by unfold gridTolX tolX; rw [sg.position, sg.size, sg.resolution]
  have hty : st'.map.gridTolY = m.gridTolY := by unfold gridTolY tolY; rw [sg.position, sg.size, sg.resolution]
  obtain ⟨v, -, v1, v2⟩ := g2 i p (by rw [sg.size]; exact hi) (by rw [hide, htx, sg.resolution]; exact hx) (by rw [hide, hty, sg.resolution]; exact hy)
  exact ⟨v, v1, v2⟩

/-- C124 on the machine: whoever reads the grid, exactly or in floating point. -/
theorem C124_fits_machine_partial (hrd : DoublePrecision F.rd) (hF : IntsExact F.rd) (htop : 2 ^ 31 ≤ F.top) (hm : HeldI w F rf m)
    (hs : m.startIndex = ⟨0, 0⟩) (hcells : m.size.x * m.size.y < 2 ^ 31) (ht : m.timestamp < 2 ^ 32 * 1000000000)
    (hrf : |rf m.resolution - m.resolution| ≤ m.resolution / 2 ^ 24) {ls : String} (hls : m.exists ls = true) (ld : String) (h0 : 0 ≤ radius)
    (hrw : radius ≤ w.size)
    (htr : |F.rd (radius / m.resolution)| < F.top) (hn : ⌈F.rd (radius / m.resolution)⌉.toNat < 2 ^ 32 - 2) (hpop : PopOk pop)
    (hh : HypOk hyp ⌈F.rd (radius / m.resolution)⌉.toNat) (ho : UsedU F rf hyp computer m.resolution o) {n : Nat}
    (hnr : (n : K) * m.resolution ≤ radius * (1 - 1 / 2 ^ 53))
    (hthr : ∀ i q, sqDist i q ≤ n * n → INSCRIBED_OBSTACLE ≤ inflationCostRd rf hyp computer m.resolution i q) {ρ : K} (h2 : 2 ≤ n)
    (hρ : 2 * ρ ^ 2 ≤ (((n : K) - 2) * m.resolution) ^ 2) (old : List Int) :
    ∃ g, inflatedGridI F rf pop hyp ls ld radius computer o old m = .ok g ∧ g.frameId = m.frameId ∧
      ∀ i p, i.In m.size → |p.x - (m.idealCentre i).x| ≤ m.resolution / 2 - m.gridTolX → |p.y - (m.idealCentre i).y| ≤ m.resolution / 2 - m.gridTolY →
        ∀ rq, DoublePrecision rq → (∃ v, g.valueAtRd rq p = some v) ∧ (m.Clearly F.rd p → g.SaysFreeRd rq p → m.RobotFitsI F.rd ls ρ p) := by
  obtain ⟨st', e, h⟩ := C116_fits_machine hrd hF htop hm hs hls ld h0 htr hn hpop hh ho [] hnr hthr h2 hρ
  obtain ⟨g, g1, gf, g2⟩ := grid_machine hrd hF htop hm hs hcells ht hrf hls ld h0 hrw htr hn hpop hh ho old e
  refine ⟨g, g1, gf, fun i p hi hx hy rq hrq => ?_⟩
  obtain ⟨v, v1, v2⟩ := g2 i p hi hx hy
  have v2 := v2 rq hrq
  refine ⟨⟨_, v2⟩, fun hp ⟨u, u1, u2⟩ => ?_⟩
  obtain ⟨r, hr, hrt⟩ := h p hp
  refine hrt ?_
  rw [v2] at u1
  rw [← Option.some.inj u1] at u2
  unfold placeClearI at hr
  rw [v1] at hr
  have := Res.ok.inj hr
  rw [← this]
  exact decide_eq_true ((free_iff v).mp u2)

/-- C124 on the machine for every map, moved or not, whose geometry fits the world, if the program makes a copy first. -/
theorem C124_moved_machine (hrd : DoublePrecision F.rd) (hF : IntsExact F.rd) (htop : 2 ^ 31 ≤ F.top) (hm : HeldI w F rf m)
    (hfit : w.Geometry m.length m.resolution m.position) (hcells : m.size.x * m.size.y < 2 ^ 31) (ht : m.timestamp < 2 ^ 32 * 1000000000)
    (hrf : |rf m.resolution - m.resolution| ≤ m.resolution / 2 ^ 24) {ls : String} (hls : m.exists ls = true) (ld : String) (h0 : 0 ≤ radius)
    (hrw : radius ≤ w.size)
    (htr : |F.rd (radius / m.resolution)| < F.top) (hn : ⌈F.rd (radius / m.resolution)⌉.toNat < 2 ^ 32 - 2) (hpop : PopOk pop)
    (hh : HypOk hyp ⌈F.rd (radius / m.resolution)⌉.toNat) (ho : UsedU F rf hyp computer m.resolution o) {n : Nat}
    (hnr : (n : K) * m.resolution ≤ radius * (1 - 1 / 2 ^ 53))
    (hthr : ∀ i q, sqDist i q ≤ n * n → INSCRIBED_OBSTACLE ≤ inflationCostRd rf hyp computer m.resolution i q) {ρ : K} (h2 : 2 ≤ n)
    (hρ : 2 * ρ ^ 2 ≤ (((n : K) - 2) * m.resolution) ^ 2) (old : List Int) :
    ∃ g, copiedGridI F rf pop hyp ls ld radius computer o old m = .ok g ∧ g.frameId = m.frameId ∧
      ∀ i p, i.In m.size → |p.x - (m.idealCentre i).x| ≤ m.resolution / 2 - m.gridTolX → |p.y - (m.idealCentre i).y| ≤ m.resolution / 2 - m.gridTolY →
        ∀ rq, DoublePrecision rq → (∃ v, g.valueAtRd rq p = some v) ∧ (m.Clearly F.rd p → g.SaysFreeRd rq p → m.RobotFitsI F.rd ls ρ p) := by
  obtain ⟨c, e, cheld, cs, cz, cl, cr, cp, cx, cc, cat⟩ := C115_same_machine hrd hF htop hm hfit
  have held : HeldI w F rf ((c.setFrameId m.frameId).setTimestamp m.timestamp) :=
    .returned (.plain (.setTimestamp m.timestamp)) (.returned (.plain (.setFrameId m.frameId)) cheld trivial rfl) trivial rfl
  have cc' : ∀ p, m.Clearly F.rd p → ((c.setFrameId m.frameId).setTimestamp m.timestamp).Clearly F.rd p := fun p h => by
    obtain ⟨a, b, d⟩ := cc p h
    exact ⟨a, b, d⟩
  have cat' : ∀ p, m.Clearly F.rd p → ((c.setFrameId m.frameId).setTimestamp m.timestamp).atPositionI F.rd ls p = m.atPositionI F.rd ls p :=
    fun p h => cat ls p hls h
  have cz' : ((c.setFrameId m.frameId).setTimestamp m.timestamp).size = m.size := cz
  have cr' : ((c.setFrameId m.frameId).setTimestamp m.timestamp).resolution = m.resolution := cr
  have cp' : ((c.setFrameId m.frameId).setTimestamp m.timestamp).position = m.position := cp
  have cs' : ((c.setFrameId m.frameId).setTimestamp m.timestamp).startIndex = ⟨0, 0⟩ := cs
  have cx' : ((c.setFrameId m.frameId).setTimestamp m.timestamp).exists ls = true := (cx ls).trans hls
  have ct' : ((c.setFrameId m.frameId).setTimestamp m.timestamp).timestamp = m.timestamp := rfl
  have cf' : ((c.setFrameId m.frameId).setTimestamp m.timestamp).frameId = m.frameId := rfl
  generalize ec : (c.setFrameId m.frameId).setTimestamp m.timestamp = c' at *
  obtain ⟨g, g1, gf, g2⟩ := C124_fits_machine_partial (radius := radius) (computer := computer) (o := o) (pop := pop) (hyp := hyp) (n := n) (ρ := ρ) hrd hF htop held
    cs' (by rw [cz']; exact hcells) (by rw [ct']; exact ht) (by rw [cr']; exact hrf)
    cx' ld h0 hrw (by rw [cr']; exact htr) (by rw [cr']; exact hn) hpop (by rw [cr']; exact hh) (by rw [cr']; exact ho) (by rw [cr']; exact hnr)
    (by rw [cr']; exact hthr) h2 (by rw [cr']; exact hρ) old
  refine ⟨g, by unfold copiedGridI; rw [e]; simp only; rw [ec]; exact g1, by rw [gf, cf'], fun i p hi hx hy rq hrq => ?_⟩
  have hide : c'.idealCentre i = m.idealCentre i := by unfold idealCentre; rw [cp', cz', cr']
  have htx : c'.gridTolX = m.gridTolX := by unfold gridTolX tolX; rw [cp', cz', cr']
  have hty : c'.gridTolY = m.gridTolY := by unfold gridTolY tolY; rw [cp', cz', cr']
  obtain ⟨a, b⟩ := g2 i p (by rw [cz']; exact hi) (by rw [hide, htx, cr']; exact hx) (by rw [hide, hty, cr']; exact hy) rq hrq
  refine ⟨a, fun hp hf x hx hxc => ?_⟩
  rw [← cat' x hxc]
  exact b (cc' p hp) hf x hx (cc' x hxc)

end

open Demo in
/-- The map with the pillar at (-1, 0), inflated by four cells and published: a robot of radius 0.7 does not fit at (-2, 0), and the grid has a value there that does not say free. -/
example : ∃ g, inflatedGrid id pop hyp "s" "t" 4 (fun _ => 253) Inflater.new [7] pillar = .ok g ∧ (∃ v, g.valueAt ⟨-2, 0⟩ = some v) ∧
    ¬ g.SaysFree ⟨-2, 0⟩ := by
  have hrad : radiusInCells 4 pillar.resolution = 4 := by decide +kernel
  have hres : pillar.resolution = 1 := by decide +kernel
  obtain ⟨g, e, -, h⟩ := C124_fits_partial (rf := id) (radius := 4) (computer := fun _ => (253 : Cost)) (ρ := 7 / 10) pillar_geo pillar_coherent pillar_start
    (by decide +kernel) rfl (ls := "s") (by decide +kernel) "t" (by rw [hrad]; decide) pop_ok (hyp_ok _) .new (fun _ _ => UInt8.le_refl _)
    (by rw [hrad]; decide) (by rw [hrad, hres]; norm_num) [7]
  obtain ⟨h1, h2⟩ := h (pillar.getIndex ⟨-2, 0⟩).1 ⟨-2, 0⟩ ⟨-2, 0⟩ (by decide +kernel) (by unfold InsideSquare; decide +kernel)
  exact ⟨g, e, h1, fun hf => h2 hf ⟨-14 / 10, 0⟩ (by unfold UnderRobot; norm_num) (by decide +kernel)⟩

open Demo in
/-- Inflated by one cell, the grid says free at (2, 2). -/
example : ∃ g, inflatedGrid id pop hyp "s" "t" 1 (fun _ => 253) Inflater.new [] pillar = .ok g ∧ g.SaysFree ⟨2, 2⟩ := by
  have hrad : radiusInCells 1 pillar.resolution = 1 := by decide +kernel
  have hres : pillar.resolution = 1 := by decide +kernel
  obtain ⟨g, h1, h⟩ := C124_complete_partial (rf := id) (radius := 1) (computer := fun _ => (253 : Cost)) pillar_geo
    pillar_coherent pillar_start (by decide +kernel) rfl (ls := "s") (by decide +kernel) "t" (by rw [hrad]; decide) pop_ok (hyp_ok _) .new []
  refine ⟨g, h1, h (pillar.getIndex ⟨2, 2⟩).1 ⟨2, 2⟩ ⟨2, 2⟩ 0 (by decide +kernel) (by unfold InsideSquare; decide +kernel) (by decide +kernel) (by decide)
    fun x hx hlet => ?_⟩
  rw [hrad, hres] at hx
  have hxin : pillar.isInside x = true := by
    by_contra h
    rw [atPosition_outside (by simpa using h)] at hlet
    cases hlet
  rw [atPosition_inside hxin] at hlet
  have he := pillar_lethal ⟨getIndex_in pillar_geo hxin, hlet⟩
  rw [getIndex_start pillar_geo pillar_start hxin] at he
  have hex := congrArg Idx.x he
  unfold cellU at hex
  rw [show pillar.position = ⟨0, 0⟩ from by decide +kernel, show pillar.length = ⟨5, 5⟩ from by decide +kernel, hres] at hex
  simp only at hex
  rw [Int.floor_eq_iff] at hex
  unfold UnderRobot at hx
  norm_num at hex hx
  nlinarith [sq_nonneg (x.y - 2), hex.1]

open Demo in
/-- On the machine: beside the obstacle at (1, 7/8) of the map with cells of a quarter the grid does not say free. -/
example : ∃ g, inflatedGridI binary64 toFloat pop (fun i j => toFloat (hypot i j)) "a" "t" (14 / 10) (fun _ => 253) Inflater.new [] quarterMap = .ok g ∧
    (∃ v, g.valueAtRd toDouble ⟨9 / 10, 85 / 100⟩ = some v) ∧ ¬ g.SaysFreeRd toDouble ⟨9 / 10, 85 / 100⟩ := by
  have hn : ⌈binary64.rd (14 / 10 / quarterMap.resolution)⌉.toNat = 6 := by decide +kernel
  obtain ⟨g, h1, -, h2⟩ := C124_fits_machine_partial (F := binary64) (rf := toFloat) (radius := 14 / 10) (computer := fun _ => 253)
    (n := 5) (ρ := 1 / 8) (pop := pop) (hyp := fun i j => toFloat (hypot i j)) (o := Inflater.new) toDouble_precision toDouble_ints top64 quarterMap_held
    (by decide +kernel) (by decide +kernel) (by decide +kernel) (by decide +kernel) (ls := "a") (by decide +kernel) "t" (by norm_num) (by decide +kernel)
    (by decide +kernel) (by rw [hn]; norm_num) pop_ok (by rw [hn]; exact (C91_hypot hypot_ok _).2 (by norm_num)) .new (by decide +kernel)
    (fun _ _ _ => UInt8.le_refl _) (by norm_num) (by decide +kernel) []
  have cl : ∀ x y : ℚ, (quarterMap.isInsideRd toDouble ⟨x, y⟩ = true ∧
      quarterMap.position.x - quarterMap.length.x / 2 + quarterMap.tolX ≤ x ∧
      quarterMap.position.y - quarterMap.length.y / 2 + quarterMap.tolY ≤ y) → quarterMap.Clearly binary64.rd ⟨x, y⟩ :=
    fun x y h => ⟨h.1, h.2.1, h.2.2⟩
  obtain ⟨h3, h4⟩ := h2 ⟨1, 1⟩ ⟨9 / 10, 85 / 100⟩ (by decide +kernel) (by decide +kernel) (by decide +kernel) toDouble toDouble_precision
  refine ⟨g, h1, h3, fun hf => ?_⟩
  refine absurd (h4 (cl _ _ (by decide +kernel)) hf ⟨95 / 100, 85 / 100⟩ (by unfold UnderRobot; norm_num) (cl _ _ (by decide +kernel))) ?_
  rw [not_not]
  decide +kernel

open Demo in
/-- The moved corridor with its obstacle at (-1, 0), copied and inflated by four cells: the grid does not say free at (-2, 0). -/
example : ∃ g, copiedGrid id pop hyp "s" "t" 4 (fun _ => 253) Inflater.new [] corridor = .ok g ∧ (∃ v, g.valueAt ⟨-2, 0⟩ = some v) ∧
    ¬ g.SaysFree ⟨-2, 0⟩ := by
  have hrad : radiusInCells 4 corridor.resolution = 4 := by decide +kernel
  have hres : corridor.resolution = 1 := by decide +kernel
  obtain ⟨g, e, -, h⟩ := C124_moved (rf := id) (radius := 4) (computer := fun _ => (253 : Cost)) (ρ := 7 / 10) corridor_geo corridor_coherent
    (by decide +kernel) rfl (ls := "s") (by decide +kernel) "t" (by rw [hrad]; decide) pop_ok (hyp_ok _) .new (fun _ _ => UInt8.le_refl _)
    (by rw [hrad]; decide) (by rw [hrad, hres]; norm_num) []
  obtain ⟨h1, h2, -⟩ := h (corridor.getIndex ⟨-2, 0⟩).1 ⟨-2, 0⟩ ⟨-2, 0⟩ (by decide +kernel) (by unfold InsideSquare; decide +kernel)
  exact ⟨g, e, h1, fun hf => h2 hf ⟨-14 / 10, 0⟩ (by unfold UnderRobot; norm_num) (by decide +kernel)⟩

open Demo in
/-- On the machine, for the map that was moved: beside the obstacle at (1, 7/8) the grid of the copy does not say free. -/
example : ∃ g, copiedGridI binary64 toFloat pop (fun i j => toFloat (hypot i j)) "a" "t" (14 / 10) (fun _ => 253) Inflater.new [] quarterMoved = .ok g ∧
    quarterMoved.startIndex ≠ ⟨0, 0⟩ ∧
    (∃ v, g.valueAtRd toDouble ⟨9 / 10, 85 / 100⟩ = some v) ∧ ¬ g.SaysFreeRd toDouble ⟨9 / 10, 85 / 100⟩ := by
  have hn : ⌈binary64.rd (14 / 10 / quarterMoved.resolution)⌉.toNat = 6 := by decide +kernel
  obtain ⟨g, h1, -, h2⟩ := C124_moved_machine (F := binary64) (rf := toFloat) (radius := 14 / 10) (computer := fun _ => 253)
    (n := 5) (ρ := 1 / 8) (pop := pop) (hyp := fun i j => toFloat (hypot i j)) (o := Inflater.new) toDouble_precision toDouble_ints top64 quarterMoved_held
    ⟨by decide +kernel, by decide +kernel, by decide +kernel, by decide +kernel, by decide +kernel, by unfold PointIn; decide +kernel⟩
    (by decide +kernel) (by decide +kernel) (by decide +kernel) (ls := "a") (by decide +kernel) "t" (by norm_num) (by decide +kernel)
    (by decide +kernel) (by rw [hn]; norm_num) pop_ok (by rw [hn]; exact (C91_hypot hypot_ok _).2 (by norm_num)) .new (by decide +kernel)
    (fun _ _ _ => UInt8.le_refl _) (by norm_num) (by decide +kernel) []
  have cl : ∀ x y : ℚ, (quarterMoved.isInsideRd toDouble ⟨x, y⟩ = true ∧
      quarterMoved.position.x - quarterMoved.length.x / 2 + quarterMoved.tolX ≤ x ∧
      quarterMoved.position.y - quarterMoved.length.y / 2 + quarterMoved.tolY ≤ y) → quarterMoved.Clearly binary64.rd ⟨x, y⟩ :=
    fun x y h => ⟨h.1, h.2.1, h.2.2⟩
  obtain ⟨h3, h4⟩ := h2 ⟨0, 0⟩ ⟨9 / 10, 85 / 100⟩ (by decide +kernel) (by decide +kernel) (by decide +kernel) toDouble toDouble_precision
  refine ⟨g, h1, by decide +kernel, h3, fun hf => ?_⟩
  refine absurd (h4 (cl _ _ (by decide +kernel)) hf ⟨95 / 100, 85 / 100⟩ (by unfold UnderRobot; norm_num) (cl _ _ (by decide +kernel))) ?_
  rw [not_not]
  decide +kernel

open Demo in
/-- C124 is false for maps that were moved: the robot stands on the obstacle of the corridor at (-1, 0), and the grid says free there. -/
theorem C124_false_moved : corridor.Geo ∧ corridor.Coherent ∧
    ((inflatedGrid id pop hyp "s" "t" 1 (fun _ => 253) Inflater.new [] corridor).bind fun g => .ok (g.valueAt ⟨-1, 0⟩)) = .ok (some 0) ∧
    corridor.atPosition "s" ⟨-1, 0⟩ = .ok LETHAL_OBSTACLE := by
  refine ⟨corridor_geo, corridor_coherent, by decide +kernel, by decide +kernel⟩

end CostMapModel

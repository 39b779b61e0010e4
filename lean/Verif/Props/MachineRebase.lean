import Verif.Props.Rebase
import Verif.Props.MachineWay

/-! # C115 on the machine: a copy whose buffer starts at zero -/

set_option linter.unusedSectionVars false

namespace CostMapModel
open Inflation CostMap

section
variable {K : Type} [Field K] [LinearOrder K] [IsStrictOrderedRing K] [FloorRing K]

/-- The cost read at a position clearly inside a map: that of the buffer cell of the row and column computed for the position. -/
theorem clearly_read {rd : K → K} (hrd : DoublePrecision rd) {m : CostMap K} (h : m.GeoRd rd) (ht : m.Tame) (hm : m.Small) {p : Vec K}
    (hp : m.Clearly rd p) (l : String) :
    Idx.In ⟨cellRd rd p.x m.length.x m.position.x m.resolution, cellRd rd p.y m.length.y m.position.y m.resolution⟩ m.size ∧
    m.atPositionI rd l p = m.at l (bufferIdx ⟨cellRd rd p.x m.length.x m.position.x m.resolution,
      cellRd rd p.y m.length.y m.position.y m.resolution⟩ m.size m.startIndex) := by
  obtain ⟨i, c, e, hi, -⟩ := C74_containing_cell_partial hrd (m := m.setStartIndex 0) ⟨h.res_pos, h.size_x, h.size_y, h.len_x, h.len_y,
    ⟨le_rfl, h.size_x, le_rfl, h.size_y⟩⟩ ⟨ht.x, ht.y⟩ (p := p) hp.inside hp.x hp.y
  have eu : ((m.setStartIndex 0).getIndexRd rd p).1 = ⟨cellRd rd p.x m.length.x m.position.x m.resolution,
      cellRd rd p.y m.length.y m.position.y m.resolution⟩ := by
    show bufferIdx _ m.size 0 = _
    unfold bufferIdx
    exact if_pos rfl
  constructor
  · rw [← eu, e]; exact hi
  · rw [(C79_access hrd h ht hm (C79_inside_near hrd h ht hm hp.inside) l 0).1]
    unfold atPositionRd
    rw [show m.getIndexRd rd p = (bufferIdx ⟨cellRd rd p.x m.length.x m.position.x m.resolution,
      cellRd rd p.y m.length.y m.position.y m.resolution⟩ m.size m.startIndex, m.isInsideRd rd p) from rfl, hp.inside]
    rfl

variable {w : World K} {F : Fmt K} {rf : K → K} {m : CostMap K}

/-- C115 on the machine. The copy of a map, whatever calls have made it, if its geometry fits the world: the same geometry apart from the start
index, which is zero, the same layers, and at every position clearly inside the same costs. -/
theorem C115_same_machine (hrd : DoublePrecision F.rd) (hF : IntsExact F.rd) (htop : 2 ^ 31 ≤ F.top) (hm : HeldI w F rf m)
    (hfit : w.Geometry m.length m.resolution m.position) :
    ∃ n, rebaseI F.rd m = (.ok (), n) ∧ HeldI w F rf n ∧ n.startIndex = ⟨0, 0⟩ ∧ n.size = m.size ∧ n.length = m.length ∧
      n.resolution = m.resolution ∧ n.position = m.position ∧ (∀ l, n.exists l = m.exists l) ∧
      (∀ p, m.Clearly F.rd p → n.Clearly F.rd p) ∧
      ∀ l p, m.exists l = true → m.Clearly F.rd p → n.atPositionI F.rd l p = m.atPositionI F.rd l p := by
  have hw := held_inWorld hrd hF htop hm
  have hg := hw.geo
  have hc := hw.coherent
  obtain ⟨n, e, nw, nz⟩ := setGeometryI_fits hrd hfit (m := CostMap.new []) (new_coherent (by simp))
  have small : ∀ {k : Int}, k ≤ 2 ^ 30 → k < 2 ^ 50 := fun h => lt_of_le_of_lt h (by norm_num)
  have cx := (cells_of_length hrd hg.res_pos hg.size_x (lt_of_le_of_lt hw.small.x (by norm_num))).2
  have cy := (cells_of_length hrd hg.res_pos hg.size_y (lt_of_le_of_lt hw.small.y (by norm_num))).2
  rw [← hg.len_x] at cx
  rw [← hg.len_y] at cy
  have nz' : n.size = m.size := by rw [nz, cx, cy]
  have hfields : n.startIndex = ⟨0, 0⟩ ∧ n.resolution = m.resolution ∧ n.position = m.position ∧ n.layers = [] ∧ n.basicLayers = [] := by
    have e' := e
    unfold setGeometryI at e'
    split at e'
    · cases e'
    split at e'
    · cases e'
    split at e'
    · cases e'
    split at e'
    · have := (Prod.mk.inj e').2
      subst this
      exact ⟨rfl, rfl, rfl, rfl, rfl⟩
    · cases e'
  obtain ⟨ns, nr, np, nls, nb⟩ := hfields
  have nl : n.length = m.length := by
    ext
    · rw [nw.geo.len_x, hg.len_x, nz', nr]
    · rw [nw.geo.len_y, hg.len_y, nz', nr]
  have hgrid : ∀ {t : K}, 0 ≤ t → OnGrid t n m 0 := fun ht => by
    refine ⟨nr.symm, ?_, ?_⟩ <;> unfold corner <;> rw [nz', nr, np] <;> simp [ht]
  have hres : 0 < n.resolution := nw.geo.res_pos
  obtain ⟨n', e', sg, sm, sc, sx, sat⟩ := C76_merges_cell_by_cell hrd nw.geo nw.tame43 nw.coherent hg hw.tame43 hc
    (hgrid (show (0 : K) ≤ n.resolution / 4 by positivity)) true true [] m.layers rfl (fun l hl => (hc.mem_iff l).mp hl) (by rw [nb]; simp)
  have eI : addDataFromI F.rd m false true true [] n = (.ok true, n') :=
    (C79_addDataFrom hrd nw.geo.start nw.small hg hw.tame hw.small true true []).trans e'
  have nex : ∀ l, n.exists l = false := by
    intro l
    by_contra h
    have : l ∈ n.layers := (nw.coherent.mem_iff l).mpr (show n.exists l = true by simpa using h)
    rw [nls] at this
    cases this
  have hheld : HeldI w F rf n' := by
    refine .returned (.addDataFrom m false true true []) (.new (ls := []) (.setGeometry m.length m.resolution m.position) (by simp) trivial hfit e)
      ⟨hg, hc, hw.tame43, hw.small, ⟨0, hgrid (by positivity)⟩, fun l hl => (hc.mem_iff l).mp hl, by rw [nb]; simp, by simp⟩ ?_
    show Call.discard (addDataFromI F.rd m false true true []) n = _
    unfold Call.discard Act.bind
    rw [eI]
    rfl
  have gs : n'.startIndex = ⟨0, 0⟩ := sg.startIndex.trans ns
  have gz := sg.size.trans nz'
  have gl := sg.length.trans nl
  have gr := sg.resolution.trans nr
  have gp := sg.position.trans np
  have hcl : ∀ p, m.Clearly F.rd p → n'.Clearly F.rd p := fun p h => by
    refine ⟨?_, ?_, ?_⟩
    · have := h.inside
      unfold isInsideRd at this ⊢
      rw [gl, gp]; exact this
    · have := h.x
      unfold tolX at this ⊢
      rw [gl, gp, gr, gz]; exact this
    · have := h.y
      unfold tolY at this ⊢
      rw [gl, gp, gr, gz]; exact this
  refine ⟨n', by unfold rebaseI Call.discard Act.bind; rw [e]; simp only; rw [eI]; rfl, hheld, gs, gz, gl, gr, gp, fun l => ?_, hcl,
    fun l p hl hp => ?_⟩
  · refine Bool.eq_iff_iff.mpr ((sx l).trans ?_)
    rw [nex]
    simp only [Bool.false_eq_true, false_or]
    exact hc.mem_iff l
  · have hw' := held_inWorld hrd hF htop hheld
    obtain ⟨u1, u2⟩ := clearly_read hrd hg hw.tame hw.small hp l
    obtain ⟨-, v2⟩ := clearly_read hrd hw'.geo hw'.tame hw'.small (hcl p hp) l
    rw [u2, v2, gl, gp, gr, gz]
    generalize (⟨cellRd F.rd p.x m.length.x m.position.x m.resolution,
      cellRd F.rd p.y m.length.y m.position.y m.resolution⟩ : Idx) = u at u1
    have hj : (bufferIdx u m.size m.startIndex).In m.size := bufferIdx_in u1 hg.start
    have hst : n'.startIndex.In m.size := by rw [gs]; exact ⟨le_rfl, hg.size_x, le_rfl, hg.size_y⟩
    have hi : (bufferIdx u m.size n'.startIndex).In m.size := bufferIdx_in u1 hst
    have hopp : ∀ j, Opposite n m 0 (bufferIdx u m.size n'.startIndex) j ↔ j = bufferIdx u m.size m.startIndex := fun j => by
      have hlog : n.logical (bufferIdx u m.size n'.startIndex) + 0 = u := by
        have := logical_eq_unwrap (m := n) (i := bufferIdx u m.size n'.startIndex) (by rw [nz']; exact hi)
        rw [this, nz', show n.startIndex = n'.startIndex from sg.startIndex.symm, unwrap_buffer u1 hst]
        ext <;> simp
      rw [opposite_iff hg.start, hlog]
      exact ⟨fun h => h.2, fun h => ⟨u1, h⟩⟩
    obtain ⟨v, hv⟩ := hc.at_ok hl hj
    have hmem := (hc.mem_iff l).mpr hl
    obtain ⟨s1, s2⟩ := sat l (bufferIdx u m.size n'.startIndex) (by rw [nz']; exact hi)
    by_cases hno : v = NO_INFORMATION
    · rw [(s2 (by
        rintro ⟨-, -, j, v', h1, h2, h3⟩
        rw [(hopp j).mp h1, hv] at h2
        injection h2 with h2
        exact h3 (h2 ▸ hno))).2 (nex l) hmem, hv, hno]
    · rw [s1 _ v hmem (.inl rfl) ((hopp _).mpr rfl) hv hno, hv]

variable {pop : Pop K} {hyp : Nat → Nat → K} {computer : K → Cost} {radius : K} {o : Inflater K}

/-- C115 on the machine. A check of a straight way on the inflated copy holds for the map itself, whatever calls have made it, if its geometry
fits the world: reading the source layer at any position within a thirty-second of a cell of a way that is found clear gives a cost other than
lethal. -/
theorem C115_clear_machine (hrd : DoublePrecision F.rd) (hF : IntsExact F.rd) (htop : 2 ^ 31 ≤ F.top) (hm : HeldI w F rf m)
    (hfit : w.Geometry m.length m.resolution m.position) {ls : String} (hls : m.exists ls = true) (ld : String) (h0 : 0 ≤ radius)
    (htr : |F.rd (radius / m.resolution)| < F.top) (hn : ⌈F.rd (radius / m.resolution)⌉.toNat < 2 ^ 32 - 2) (hpop : PopOk pop)
    (hh : HypOk hyp ⌈F.rd (radius / m.resolution)⌉.toNat) (ho : UsedU F rf hyp computer m.resolution o) (log : List Idx)
    (hnr : 2 * m.resolution ≤ radius * (1 - 1 / 2 ^ 53)) {thr : Cost}
    (hthr : ∀ i q, sqDist i q ≤ 2 * 2 → thr ≤ inflationCostRd rf hyp computer m.resolution i q) (sqrt : K → K) :
    ∃ n st', rebaseI F.rd m = (.ok (), n) ∧ inflateU F rf pop hyp ls ld (.fin radius) computer ⟨o, n, log⟩ = (.ok (), st') ∧
      ∀ a b, m.Clearly F.rd a → m.Clearly F.rd b →
        ∃ r, (∀ fuel, 1 ≤ fuel → wayClearI F.rd sqrt fuel st'.map ld thr a b = .ok r) ∧
          (r = true → ∀ p, NearSegment (m.resolution / 32) a b p → m.Clearly F.rd p →
            ∃ c, m.atPositionI F.rd ls p = .ok c ∧ c ≠ LETHAL_OBSTACLE) := by
  obtain ⟨n, e, nh, ns, -, -, nr, -, nx, nc, nat⟩ := C115_same_machine hrd hF htop hm hfit
  rw [← nr] at htr hn hh ho hnr hthr ⊢
  obtain ⟨st', h1, h⟩ := C114_clear hrd hF htop nh ns (ls := ls) (by rw [nx, hls]) ld h0 htr hn hpop hh ho log hnr hthr sqrt
  refine ⟨n, st', e, h1, fun a b ha hb => ?_⟩
  obtain ⟨r, hr, h⟩ := h a b (nc a ha) (nc b hb)
  refine ⟨r, hr, fun hrt p hp hpc => ?_⟩
  obtain ⟨c, h2, h3⟩ := h hrt p hp (nc p hpc)
  exact ⟨c, by rw [← nat ls p hls hpc, h2], h3⟩

end

namespace Demo

/-- The map of 7 x 7 cells of 0.1 with a lethal cell, its buffer starting at cell (2, 5). -/
def turnedPillar : CostMap ℚ := (MachineCall.run binary64 toFloat (.plain (.setStartIndex ⟨2, 5⟩)) tenthPillar).2

theorem turnedPillar_held : HeldI hundred binary64 toFloat turnedPillar := by
  refine .returned (.plain (.setStartIndex ⟨2, 5⟩)) tenthPillar_held (show (⟨2, 5⟩ : Idx).In tenthPillar.size by decide +kernel) ?_
  exact Prod.ext (by decide +kernel) rfl

theorem turnedPillar_clearly (x y : ℚ) (h : turnedPillar.isInsideRd toDouble ⟨x, y⟩ = true ∧
    turnedPillar.position.x - turnedPillar.length.x / 2 + turnedPillar.tolX ≤ x ∧
    turnedPillar.position.y - turnedPillar.length.y / 2 + turnedPillar.tolY ≤ y) : turnedPillar.Clearly binary64.rd ⟨x, y⟩ :=
  ⟨h.1, h.2.1, h.2.2⟩

end Demo

open Demo in
/-- The obstacle is at (0.3, -0.2). On the copy, inflated by 0.25 m, the way that leads through it is not found clear. -/
example : ∃ n st', rebaseI toDouble turnedPillar = (.ok (), n) ∧ turnedPillar.startIndex = ⟨2, 5⟩ ∧
    inflateU binary64 toFloat pop (fun i j => toFloat (hypot i j)) "a" "t" (.fin (1 / 4)) (fun _ => 253) ⟨Inflater.new, n, []⟩ = (.ok (), st') ∧
    wayClearI toDouble rootDouble 1 st'.map "t" 253 ⟨3 / 10, -1 / 20⟩ ⟨3 / 10, -3 / 10⟩ = .ok false := by
  have hn : ⌈binary64.rd (1 / 4 / turnedPillar.resolution)⌉.toNat = 3 := by decide +kernel
  obtain ⟨n, st', e, h1, h2⟩ := C115_clear_machine (F := binary64) (rf := toFloat) (radius := 1 / 4) (computer := fun _ => 253) (thr := 253)
    toDouble_precision toDouble_ints top64 turnedPillar_held
    ⟨by decide +kernel, by decide +kernel, by decide +kernel, by decide +kernel, by decide +kernel, by unfold PointIn; decide +kernel⟩
    (ls := "a") (by decide +kernel) "t" (by norm_num)
    (by decide +kernel) (by rw [hn]; norm_num) pop_ok (by rw [hn]; exact (C91_hypot hypot_ok _).2 (by norm_num)) .new []
    (by decide +kernel) (fun _ _ _ => UInt8.le_refl _) rootDouble
  refine ⟨n, st', e, by decide +kernel, h1, ?_⟩
  obtain ⟨r, hr, h⟩ := h2 ⟨3 / 10, -1 / 20⟩ ⟨3 / 10, -3 / 10⟩ (turnedPillar_clearly _ _ (by decide +kernel))
    (turnedPillar_clearly _ _ (by decide +kernel))
  cases r
  · exact hr 1 le_rfl
  · obtain ⟨c, c1, c2⟩ := h rfl ⟨3 / 10, -1 / 5⟩ ⟨3 / 5, by norm_num, by norm_num, by rw [abs_le]; constructor <;> decide +kernel,
      by rw [abs_le]; constructor <;> decide +kernel⟩ (turnedPillar_clearly _ _ (by decide +kernel))
    rw [show turnedPillar.atPositionI binary64.rd "a" ⟨3 / 10, -1 / 5⟩ = .ok LETHAL_OBSTACLE from by decide +kernel] at c1
    injection c1 with c1
    exact absurd c1.symm c2

end CostMapModel

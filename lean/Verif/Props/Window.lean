import Verif.Model.Window
import Verif.Props.Footprint
import Verif.Props.Submap

/-! # C119: planning in a window of the map -/

set_option linter.unusedSectionVars false

namespace CostMapModel
open Inflation CostMap

section
variable {K : Type} [Field K] [LinearOrder K] [IsStrictOrderedRing K] [FloorRing K]
variable {pop : Pop K} {hyp : Nat → Nat → K} {computer : K → Cost} {radius : K} {m : CostMap K} {o : Inflater K}

/-- The window: a map that was not moved, and reads like the map it was cut from. -/
theorem window_spec (hg : m.Geo) (hc : m.Coherent) {pos len : Vec K} (hok : RequestOk m pos len) (hx : 0 ≤ len.x) (hy : 0 ≤ len.y)
    (hp : m.isInside pos = true) :
    ∃ s, (∀ rest, inWindow m pos len rest = rest s) ∧ s.Geo ∧ s.Coherent ∧ s.startIndex = ⟨0, 0⟩ ∧ s.resolution = m.resolution ∧
      (∀ l, s.exists l = m.exists l) ∧ (∀ q, m.Covers q → InRect pos len q → s.isInside q = true) ∧
      ∀ q, s.isInside q = true → m.isInside q = true ∧ ∀ l, s.atPosition l q = m.atPosition l q := by
  obtain ⟨s, hs⟩ := C26_submap_succeeds hg hc 0 hok hx hy hp
  obtain ⟨hl, -, hat⟩ := C25_submap_reads_like_parent hg hc hs
  obtain ⟨hr, sg, -, -⟩ := C26_submap_aligned hg hc hs
  obtain ⟨hcov, -⟩ := C26_submap_covers_request hg hc hok hx hy hs
  rcases getSubmap_spec hg hc pos len 0 with ⟨-, e⟩ | ⟨s', e, -, hb, -, sc, -⟩
  · rw [e] at hs; cases hs
  rw [e] at hs
  cases hs
  refine ⟨s, fun rest => ?_, sg, sc, hb.start, hr, fun l => ?_, fun q h1 h2 => (C11_inside_iff s q).mpr (hcov q h1 h2), fun q hq => ?_⟩
  · unfold inWindow
    rw [e]
    rfl
  · show (s.data l).isSome = (m.data l).isSome
    rw [Bool.eq_iff_iff, ← sc.mem_iff, ← hc.mem_iff, hl]
  · obtain ⟨h1, h2⟩ := hat q ((C11_inside_iff s q).mp hq)
    exact ⟨(C11_inside_iff m q).mpr h1, h2⟩

/-- If the robot is in the window as far as it is in the map, it fits in the map if it fits in the window. -/
theorem fits_of_window {s : CostMap K} {pos len : Vec K} (hcov : ∀ q, m.Covers q → InRect pos len q → s.isInside q = true)
    (hat : ∀ q, s.isInside q = true → m.isInside q = true ∧ ∀ l, s.atPosition l q = m.atPosition l q) {l : String} {ρ : K} {p : Vec K}
    (hin : ∀ x, UnderRobot ρ p x → m.Covers x → InRect pos len x) (h : s.RobotFits l ρ p) : m.RobotFits l ρ p := by
  intro x hx hlet
  have hxm : m.isInside x = true := by
    by_contra h'
    rw [atPosition_outside (by simpa using h')] at hlet
    cases hlet
  have hxc := (C11_inside_iff m x).mp hxm
  have hxs := hcov x hxc (hin x hx hxc)
  exact h x hx (by rw [(hat x hxs).2, hlet])

/-- C119. Cut a window, inflate it and look at one cost, on any map, moved or not: at every position of the requested rectangle inside the map there is an
answer, and if it is "clear" and the robot does not stick out of the rectangle, the robot fits in the map. -/
theorem C119_fits (hg : m.Geo) (hc : m.Coherent) {ls : String} (hls : m.exists ls = true) (ld : String)
    (hn : radiusInCells radius m.resolution < 2 ^ 32 - 1) (hpop : PopOk pop)
    (hh : HypOk hyp (radiusInCells radius m.resolution)) (ho : Used hyp computer m.resolution o) {thr : Cost}
    (hthr : ∀ d, d ≤ m.resolution * (radiusInCells radius m.resolution : K) → thr ≤ computer d) {ρ : K}
    (h1 : 1 ≤ radiusInCells radius m.resolution) (hρ : 2 * ρ ^ 2 ≤ (((radiusInCells radius m.resolution : K) - 1) * m.resolution) ^ 2)
    {pos len : Vec K} (hok : RequestOk m pos len) (hx : 0 ≤ len.x) (hy : 0 ≤ len.y) (hpos : m.isInside pos = true)
    {p : Vec K} (hp : m.Covers p) (hpr : InRect pos len p) :
    ∃ r, inWindow m pos len (inflated pop hyp ls ld radius computer o fun w => placeClear w ld thr p) = .ok r ∧
      (r = true → (∀ x, UnderRobot ρ p x → m.Covers x → InRect pos len x) → m.RobotFits ls ρ p) := by
  obtain ⟨s, hs, sg, sc, s0, sr, se, hcov, hat⟩ := window_spec hg hc hok hx hy hpos
  rw [← sr] at hn hh ho hthr h1 hρ
  obtain ⟨st', e, h⟩ := C116_fits sg sc s0 (by rw [se, hls]) ld hn hpop hh ho [] hthr h1 hρ
  obtain ⟨r, hr, hrt⟩ := h p (hcov p hp hpr)
  refine ⟨r, ?_, fun h hin => fits_of_window hcov hat hin (hrt h)⟩
  rw [hs]
  unfold inflated
  rw [e]
  exact hr

/-- C119. No false alarm: if a robot of one cell more than the inflation fits in the map and the cost of its own cell is below the threshold, the answer is
"clear", however the window was chosen around it. -/
theorem C119_complete (hg : m.Geo) (hc : m.Coherent) {ls : String} (hls : m.exists ls = true) (ld : String)
    (hn : radiusInCells radius m.resolution < 2 ^ 32 - 1) (hpop : PopOk pop)
    (hh : HypOk hyp (radiusInCells radius m.resolution)) (ho : Used hyp computer m.resolution o) (thr : Cost)
    {pos len : Vec K} (hok : RequestOk m pos len) (hx : 0 ≤ len.x) (hy : 0 ≤ len.y) (hpos : m.isInside pos = true)
    {p : Vec K} {v : Cost} (hpr : InRect pos len p) (hv : m.atPosition ls p = .ok v) (hlt : v < thr)
    (hfit : m.RobotFits ls (((radiusInCells radius m.resolution : K) + 1) * m.resolution) p) :
    inWindow m pos len (inflated pop hyp ls ld radius computer o fun w => placeClear w ld thr p) = .ok true := by
  obtain ⟨s, hs, sg, sc, s0, sr, se, hcov, hat⟩ := window_spec hg hc hok hx hy hpos
  have hpm : m.isInside p = true := by
    by_contra h'
    rw [atPosition_outside (by simpa using h')] at hv
    cases hv
  have hps := hcov p ((C11_inside_iff m p).mp hpm) hpr
  rw [← sr] at hn hh ho hfit
  obtain ⟨st', e, h⟩ := C116_complete sg sc s0 (by rw [se, hls]) ld hn hpop hh ho [] thr
  rw [hs]
  unfold inflated
  rw [e]
  refine h p v (by rw [(hat p hps).2, hv]) hlt fun x hx hlet => ?_
  have hxs : s.isInside x = true := by
    by_contra h'
    rw [atPosition_outside (by simpa using h')] at hlet
    cases hlet
  exact hfit x hx (by rw [← (hat x hxs).2, hlet])

/-- C119. A straight way in the window: if it is found clear and the robot does not stick out of the window on the way, the robot fits in the map at every
point of the way. -/
theorem C119_way (norm : Vec K → K) (hg : m.Geo) (hc : m.Coherent) {ls : String} (hls : m.exists ls = true) (ld : String)
    (hn : radiusInCells radius m.resolution < 2 ^ 32 - 1) (hpop : PopOk pop)
    (hh : HypOk hyp (radiusInCells radius m.resolution)) (ho : Used hyp computer m.resolution o) {thr : Cost}
    (hthr : ∀ d, d ≤ m.resolution * (radiusInCells radius m.resolution : K) → thr ≤ computer d) {ρ : K}
    (h1 : 3 ≤ radiusInCells radius m.resolution) (hρ : 2 * ρ ^ 2 ≤ (((radiusInCells radius m.resolution : K) - 3) * m.resolution) ^ 2)
    {pos len : Vec K} (hok : RequestOk m pos len) (hx : 0 ≤ len.x) (hy : 0 ≤ len.y) (hpos : m.isInside pos = true)
    {a b : Vec K} (ha : m.Covers a) (har : InRect pos len a) (hb : m.Covers b) (hbr : InRect pos len b) :
    ∃ r, inWindow m pos len (inflated pop hyp ls ld radius computer o fun w => wayClear norm w ld thr a b) = .ok r ∧
      (r = true → ∀ p, OnWay a b p → (∀ x, UnderRobot ρ p x → m.Covers x → InRect pos len x) → m.RobotFits ls ρ p) := by
  obtain ⟨s, hs, sg, sc, s0, sr, se, hcov, hat⟩ := window_spec hg hc hok hx hy hpos
  rw [← sr] at hn hh ho hthr h1 hρ
  obtain ⟨st', e, h⟩ := C116_way norm sg sc s0 (by rw [se, hls]) ld hn hpop hh ho [] hthr h1 hρ
  obtain ⟨r, hr, hrt⟩ := h a b (hcov a ha har) (hcov b hb hbr)
  refine ⟨r, ?_, fun h p hp hin => fits_of_window hcov hat hin (hrt h p hp)⟩
  rw [hs]
  unfold inflated
  rw [e]
  exact hr

/-- C119. A circle of cells in the window, which no seam runs through, on any map, moved or not. -/
theorem C119_circle (hg : m.Geo) (hc : m.Coherent) {l : String} (hl : m.exists l = true) {thr : Cost} (hthr : thr ≤ LETHAL_OBSTACLE)
    {pos len : Vec K} (hok : RequestOk m pos len) (hx : 0 ≤ len.x) (hy : 0 ≤ len.y) (hpos : m.isInside pos = true) {p : Vec K} {ρ : K}
    (hρ : 0 ≤ ρ) (htl : EpsOk m ⟨p.x + (ρ + m.resolution), p.y + (ρ + m.resolution)⟩)
    (hbr : EpsOk m ⟨p.x - (ρ + m.resolution), p.y - (ρ + m.resolution)⟩) :
    ∃ r, inWindow m pos len (fun w => circleClear w l thr p (ρ + m.resolution)) = .ok r ∧
      (r = true → (∀ x, UnderRobot ρ p x → m.Covers x → InRect pos len x) → m.RobotFits l ρ p) := by
  obtain ⟨s, hs, sg, sc, s0, sr, se, hcov, hat⟩ := window_spec hg hc hok hx hy hpos
  have eps : ∀ q, EpsOk m q → EpsOk s q := fun q h => by unfold EpsOk at h ⊢; rw [sr]; exact h
  have hres := sg.res_pos
  rw [← sr] at htl hbr ⊢
  obtain ⟨r, h1, h2⟩ := C118_robot_partial sg sc (by rw [se, hl]) hthr p hρ (eps _ htl) (eps _ hbr)
    (seamFree_of_unmoved sg s0 (eps _ htl) (eps _ hbr) (by simp only; linarith) (by simp only; linarith))
  exact ⟨r, by rw [hs, h1], fun h hin => fits_of_window hcov hat hin (h2 h)⟩

/-- C119. Around a position outside of the map there is no window, and the answer is "not clear". -/
theorem C119_outside (hg : m.Geo) (hc : m.Coherent) (pos len : Vec K) (hpos : m.isInside pos = false) (rest : CostMap K → Res Bool) :
    inWindow m pos len rest = .ok false := by
  unfold inWindow
  rw [C26_outside_fails hg hc 0 hpos]
  rfl

end

/-- C119 for a robot that sticks out of the window is false: the window does not know the obstacles around it. -/
theorem C119_false_edge :
    Demo.pillar.Geo ∧ Demo.pillar.Coherent ∧ Demo.pillar.isInside ⟨1, 0⟩ = true ∧
      inWindow Demo.pillar ⟨1, 0⟩ ⟨1 / 2, 1 / 2⟩ (fun w => circleClear w "s" LETHAL_OBSTACLE ⟨1, 0⟩ (7 / 4 + Demo.pillar.resolution)) = .ok true ∧
      ¬ Demo.pillar.RobotFits "s" (7 / 4) ⟨1, 0⟩ :=
  ⟨Demo.pillar_geo, Demo.pillar_coherent, by decide +kernel, by decide +kernel, fun h =>
    h ⟨-7 / 10, 0⟩ (by unfold UnderRobot; norm_num) (by decide +kernel)⟩

open Demo in
/-- The corridor whose buffer starts at cell (3, 0), with an obstacle at (-1, 0). Looked at directly, the robot of 0.2 at (-1.5, 0) is found clear
(`C118_false_moved`); looked at through a window of 4 x 1 it is not. -/
example : corridor.startIndex = ⟨3, 0⟩ ∧
    inWindow corridor ⟨-3 / 2, 0⟩ ⟨4, 1⟩ (fun w => circleClear w "s" LETHAL_OBSTACLE ⟨-3 / 2, 0⟩ (1 / 5 + corridor.resolution)) = .ok false := by
  obtain ⟨r, h1, h2⟩ := C119_circle corridor_geo corridor_coherent (l := "s") (by decide +kernel) (thr := LETHAL_OBSTACLE) (UInt8.le_refl _)
    (pos := ⟨-3 / 2, 0⟩) (len := ⟨4, 1⟩) (by unfold RequestOk; decide +kernel) (by norm_num) (by norm_num) (by decide +kernel) (p := ⟨-3 / 2, 0⟩) (ρ := 1 / 5)
    (by norm_num) (by decide +kernel) (by decide +kernel)
  refine ⟨by decide +kernel, ?_⟩
  cases r
  · exact h1
  · refine absurd (h2 rfl fun x hx _ => ?_) C118_false_moved.2.2.2
    unfold UnderRobot at hx
    simp only at hx
    have e1 := abs_le.mp (abs_le_of_sq_le_sq (show (x.x - -3 / 2) ^ 2 ≤ (1 / 5) ^ 2 by nlinarith [sq_nonneg (x.y - 0)]) (by norm_num))
    have e2 := abs_le.mp (abs_le_of_sq_le_sq (show (x.y - 0) ^ 2 ≤ (1 / 5) ^ 2 by nlinarith [sq_nonneg (x.x - -3 / 2)]) (by norm_num))
    unfold InRect
    simp only
    exact ⟨⟨by linarith [e1.1], by linarith [e1.2]⟩, by linarith [e2.1], by linarith [e2.2]⟩

open Demo in
/-- The same place and a way, in an inflated window: a robot of 0.7 does not fit at (-1.5, 0), and cannot drive from (1, 0) to (-3, 0). -/
example : inWindow corridor ⟨-1, 0⟩ ⟨6, 1⟩ (inflated pop hyp "s" "t" 2 (fun _ => 253) Inflater.new fun w => placeClear w "t" 253 ⟨-3 / 2, 0⟩) =
      .ok false ∧
    inWindow corridor ⟨-1, 0⟩ ⟨6, 1⟩ (inflated pop hyp "s" "t" 4 (fun _ => 253) Inflater.new fun w =>
      wayClear (fun v => |v.x| + |v.y|) w "t" 253 ⟨1, 0⟩ ⟨-3, 0⟩) = .ok false := by
  have h2 : radiusInCells 2 corridor.resolution = 2 := by decide +kernel
  have h4 : radiusInCells 4 corridor.resolution = 4 := by decide +kernel
  have hok : RequestOk corridor ⟨-1, 0⟩ ⟨6, 1⟩ := by unfold RequestOk; decide +kernel
  have hfit : ¬ corridor.RobotFits "s" (7 / 10) ⟨-3 / 2, 0⟩ := fun h =>
    h ⟨-14 / 10, 0⟩ (by unfold UnderRobot; norm_num) (by decide +kernel)
  have hin : ∀ x, UnderRobot (7 / 10) ⟨-3 / 2, 0⟩ x → corridor.Covers x → InRect ⟨-1, 0⟩ ⟨6, 1⟩ x := by
    intro x hx hc
    unfold UnderRobot at hx
    simp only at hx
    have e1 := abs_le.mp (abs_le_of_sq_le_sq (show (x.x - -3 / 2) ^ 2 ≤ (7 / 10) ^ 2 by nlinarith [sq_nonneg (x.y - 0)]) (by norm_num))
    have e2 := abs_le.mp (abs_le_of_sq_le_sq (show (x.y - 0) ^ 2 ≤ (7 / 10) ^ 2 by nlinarith [sq_nonneg (x.x - -3 / 2)]) (by norm_num))
    obtain ⟨-, c1, c2⟩ := hc
    rw [show corridor.position.y = 0 from by decide +kernel, show corridor.length.y = 1 from by decide +kernel] at c1 c2
    unfold InRect
    simp only
    exact ⟨⟨by linarith [e1.1], by linarith [e1.2]⟩, by linarith, by linarith⟩
  constructor
  · obtain ⟨r, h1, h⟩ := C119_fits (radius := 2) (computer := fun _ => 253) (thr := 253) (ρ := 7 / 10) corridor_geo corridor_coherent (ls := "s")
      (by decide +kernel) "t" (by rw [h2]; norm_num) pop_ok (by rw [h2]; exact hyp_ok _) .new (fun _ _ => UInt8.le_refl _) (by rw [h2]; norm_num)
      (by rw [h2]; decide +kernel) hok (by norm_num) (by norm_num) (by decide +kernel) (p := ⟨-3 / 2, 0⟩) (by unfold Covers; decide +kernel)
      (by unfold InRect; norm_num)
    cases r
    · exact h1
    · exact absurd (h rfl hin) hfit
  · obtain ⟨r, h1, h⟩ := C119_way (radius := 4) (computer := fun _ => 253) (thr := 253) (ρ := 7 / 10) (fun v => |v.x| + |v.y|) corridor_geo
      corridor_coherent (ls := "s")
      (by decide +kernel) "t" (by rw [h4]; norm_num) pop_ok (by rw [h4]; exact hyp_ok _) .new (fun _ _ => UInt8.le_refl _) (by rw [h4]; norm_num)
      (by rw [h4]; decide +kernel) hok (by norm_num) (by norm_num) (by decide +kernel) (a := ⟨1, 0⟩) (b := ⟨-3, 0⟩)
      (by unfold Covers; decide +kernel) (by unfold InRect; norm_num) (by unfold Covers; decide +kernel) (by unfold InRect; norm_num)
    cases r
    · exact h1
    · exact absurd (h rfl ⟨-3 / 2, 0⟩ ⟨5 / 8, by norm_num, by norm_num, by norm_num⟩ hin) hfit

open Demo in
/-- A free place: the robot of one cell fits at (3, 0) of the corridor, and the window says so. -/
example : inWindow corridor ⟨2, 0⟩ ⟨4, 1⟩ (inflated pop hyp "s" "t" 1 (fun _ => 253) Inflater.new fun w => placeClear w "t" 253 ⟨3, 0⟩) = .ok true := by
  have h1 : radiusInCells 1 corridor.resolution = 1 := by decide +kernel
  refine C119_complete (v := 0) corridor_geo corridor_coherent (by decide +kernel) "t" (by rw [h1]; norm_num) pop_ok (by rw [h1]; exact hyp_ok _) .new 253
    (by unfold RequestOk; decide +kernel) (by norm_num) (by norm_num) (by decide +kernel) (by unfold InRect; norm_num) (by decide +kernel) (by decide) ?_
  rw [h1, show corridor.resolution = 1 from by decide +kernel]
  intro x hx hlet
  obtain ⟨i, c, g1, g2, g3, g4⟩ := lethal_centre corridor_geo hlet
  have hi : i = ⟨8, 0⟩ := corridor_lethal ⟨(by by_contra h; rw [getPosition_none h] at g1; cases g1), g2⟩
  have hc : corridor.getPosition ⟨8, 0⟩ = some ⟨-1, 0⟩ := by decide +kernel
  rw [hi, hc] at g1
  cases g1
  rw [show corridor.resolution = 1 from by decide +kernel] at g3
  unfold UnderRobot at hx
  simp only at hx g3
  have e1 := abs_le.mp (abs_le_of_sq_le_sq (show (x.x - 3) ^ 2 ≤ 2 ^ 2 by norm_num at hx ⊢; nlinarith [sq_nonneg (x.y - 0)]) (by norm_num))
  have e2 := abs_le.mp g3
  linarith [e1.1, e2.1]

end CostMapModel

import Verif.Model.Footprint
import Verif.Props.PlaceCheck
import Verif.Props.Iterators

/-! # C118: checking a footprint cell by cell -/

set_option linter.unusedSectionVars false

namespace CostMapModel
open Inflation CostMap

section
variable {K : Type} [Field K] [LinearOrder K] [IsStrictOrderedRing K] [FloorRing K] {m : CostMap K} {l : String}

/-- The answer of the program, for an iterator that visits the cells with a centre in the shape. -/
theorem shapeClear_eq (hc : m.Coherent) (hl : m.exists l = true) (thr : Cost) {it : ShapeIter K} {xs : List Idx} {P : Vec K → Prop}
    (hv : Visits ShapeIter.ops it xs) (he : Enumerates xs fun i => ∃ p, m.getPosition i = some p ∧ P p) :
    ∃ r, shapeClear m l thr (.ok it) = .ok r ∧
      (r = true ↔ ∀ i p, m.getPosition i = some p → P p → ∃ c, m.at l i = .ok c ∧ c < thr) := by
  have hin : ∀ i ∈ xs, i.In m.size := fun i hi => by
    obtain ⟨p, hp, -⟩ := (he.2 i).mp hi
    by_contra h
    rw [getPosition_none h] at hp
    cases hp
  obtain ⟨cost, hcost⟩ : ∃ cost : Idx → Cost, ∀ i, i.In m.size → m.at l i = .ok (cost i) := by
    refine ⟨fun i => match m.at l i with | .ok v => v | _ => 0, fun i hi => ?_⟩
    obtain ⟨v, hv⟩ := hc.at_ok hl hi
    simp only [hv]
  have hlen : xs.length < m.size.x.toNat * m.size.y.toNat + 1 := by
    have hsub : xs ⊆ colMajor m.size.x.toNat m.size.y.toNat := fun i hi => mem_cells_of_in (hin i hi)
    have := (he.1.subperm hsub).length_le
    rw [colMajor_length] at this
    omega
  refine ⟨decide (∀ i ∈ xs, ¬ thr ≤ cost i), ?_, ?_⟩
  · unfold shapeClear
    rw [Res.bind_ok]
    rw [Act.forIter_eq _ hv _ hlen, wayCells (cost := cost) fun i hi => hcost i (hin i hi)]
    simp
  · rw [decide_eq_true_iff]
    constructor
    · intro h i p hp hP
      have hi := (he.2 i).mpr ⟨p, hp, hP⟩
      exact ⟨_, hcost i (hin i hi), UInt8.not_le.mp (h i hi)⟩
    · intro h i hi
      obtain ⟨p, hp, hP⟩ := (he.2 i).mp hi
      obtain ⟨c, hcv, hlt⟩ := h i p hp hP
      rw [hcost i (hin i hi)] at hcv
      injection hcv with hcv
      rw [hcv]
      exact UInt8.not_le.mpr hlt

/-- C118. A circle checked cell by cell: where the seam of the buffer is not in the box of the circle, the check gives an answer, and it is "clear"
exactly if every cell with a centre in the circle has a cost below the threshold. -/
theorem C118_circle_partial (hg : m.Geo) (hc : m.Coherent) (hl : m.exists l = true) (thr : Cost) (center : Vec K) {radius : K} (hr : 0 ≤ radius)
    (htl : EpsOk m ⟨center.x + radius, center.y + radius⟩) (hbr : EpsOk m ⟨center.x - radius, center.y - radius⟩)
    (hf : SeamFree m ⟨center.x + radius, center.y + radius⟩ ⟨center.x - radius, center.y - radius⟩) :
    ∃ r, circleClear m l thr center radius = .ok r ∧
      (r = true ↔ ∀ i p, m.getPosition i = some p → dist2 p center ≤ radius ^ 2 → ∃ c, m.at l i = .ok c ∧ c < thr) := by
  obtain ⟨it, xs, h1, h2, h3⟩ := C17_circle_partial hg center hr htl hbr hf
  unfold circleClear
  rw [h1]
  exact shapeClear_eq hc hl thr h2 h3

/-- C118. A polygon checked cell by cell, on any map, moved or not: the check gives an answer, and it is "clear" exactly if every cell with a centre
inside the polygon has a cost below the threshold. -/
theorem C118_polygon (hg : m.Geo) (hc : m.Coherent) (hl : m.exists l = true) (thr : Cost) {vs : List (Vec K)} (hne : vs ≠ [])
    (heps : ∀ v ∈ vs, EpsOk m v) :
    ∃ r, polygonClear m l thr vs = .ok r ∧
      (r = true ↔ ∀ i p, m.getPosition i = some p → EvenOdd vs p → ∃ c, m.at l i = .ok c ∧ c < thr) := by
  obtain ⟨it, xs, h1, h2, h3⟩ := C19_polygon hg vs hne heps
  unfold polygonClear
  rw [h1]
  exact shapeClear_eq hc hl thr h2 h3

/-- A position that reads the lethal cost, and the centre of its cell. -/
theorem lethal_centre (hg : m.Geo) {x : Vec K} (h : m.atPosition l x = .ok LETHAL_OBSTACLE) :
    ∃ i c, m.getPosition i = some c ∧ m.at l i = .ok LETHAL_OBSTACLE ∧ |c.x - x.x| ≤ m.resolution / 2 ∧ |c.y - x.y| ≤ m.resolution / 2 := by
  have hx : m.isInside x = true := by
    by_contra h'
    rw [atPosition_outside (by simpa using h')] at h
    cases h
  rw [atPosition_inside hx] at h
  obtain ⟨-, c, hc, ⟨a1, a2⟩, b1, b2⟩ := (C11_containing_cell hg x).2 ((C11_inside_iff m x).mp hx)
  refine ⟨_, c, hc, h, ?_, ?_⟩ <;> rw [abs_le] <;> constructor <;> linarith

/-- C118. If the circle that is found clear is larger than the robot by a cell, the robot fits. -/
theorem C118_robot_partial (hg : m.Geo) (hc : m.Coherent) (hl : m.exists l = true) {thr : Cost} (hthr : thr ≤ LETHAL_OBSTACLE) (p : Vec K) {ρ : K}
    (hρ : 0 ≤ ρ) (htl : EpsOk m ⟨p.x + (ρ + m.resolution), p.y + (ρ + m.resolution)⟩)
    (hbr : EpsOk m ⟨p.x - (ρ + m.resolution), p.y - (ρ + m.resolution)⟩)
    (hf : SeamFree m ⟨p.x + (ρ + m.resolution), p.y + (ρ + m.resolution)⟩ ⟨p.x - (ρ + m.resolution), p.y - (ρ + m.resolution)⟩) :
    ∃ r, circleClear m l thr p (ρ + m.resolution) = .ok r ∧ (r = true → m.RobotFits l ρ p) := by
  have hr := hg.res_pos
  obtain ⟨r, h1, h2⟩ := C118_circle_partial hg hc hl thr p (radius := ρ + m.resolution) (by linarith) htl hbr hf
  refine ⟨r, h1, fun hrt x hx hlet => ?_⟩
  obtain ⟨i, c, hc1, hc2, hcx, hcy⟩ := lethal_centre hg hlet
  obtain ⟨v, hv, hlt⟩ := h2.mp hrt i c hc1 (by
    unfold UnderRobot at hx
    unfold dist2
    have ax := abs_le.mp hcx
    have ay := abs_le.mp hcy
    have e1 := abs_le.mp (abs_le_of_sq_le_sq (show (x.x - p.x) ^ 2 ≤ ρ ^ 2 by nlinarith [sq_nonneg (x.y - p.y)]) hρ)
    have e2 := abs_le.mp (abs_le_of_sq_le_sq (show (x.y - p.y) ^ 2 ≤ ρ ^ 2 by nlinarith [sq_nonneg (x.x - p.x)]) hρ)
    have s1 : (c.x - x.x) ^ 2 ≤ (m.resolution / 2) ^ 2 := sq_le_sq' ax.1 ax.2
    have s2 : (c.y - x.y) ^ 2 ≤ (m.resolution / 2) ^ 2 := sq_le_sq' ay.1 ay.2
    have k1 : (c.x - x.x) * (x.x - p.x) ≤ m.resolution / 2 * ρ := by
      calc _ ≤ |c.x - x.x| * |x.x - p.x| := by rw [← abs_mul]; exact le_abs_self _
        _ ≤ _ := mul_le_mul hcx (abs_le.mpr e1) (abs_nonneg _) (by linarith)
    have k2 : (c.y - x.y) * (x.y - p.y) ≤ m.resolution / 2 * ρ := by
      calc _ ≤ |c.y - x.y| * |x.y - p.y| := by rw [← abs_mul]; exact le_abs_self _
        _ ≤ _ := mul_le_mul hcy (abs_le.mpr e2) (abs_nonneg _) (by linarith)
    have ex : (c.x - p.x) ^ 2 = (c.x - x.x) ^ 2 + 2 * ((c.x - x.x) * (x.x - p.x)) + (x.x - p.x) ^ 2 := by ring
    have ey : (c.y - p.y) ^ 2 = (c.y - x.y) ^ 2 + 2 * ((c.y - x.y) * (x.y - p.y)) + (x.y - p.y) ^ 2 := by ring
    rw [ex, ey]
    nlinarith)
  rw [hc2] at hv
  injection hv with hv
  exact UInt8.not_le.mpr hlt (hv ▸ hthr)

/-- C118. If a polygon is found clear that also contains what is within half a cell, along both axes, of a footprint, then no point of the footprint is in a
lethal cell. -/
theorem C118_grown (hg : m.Geo) (hc : m.Coherent) (hl : m.exists l = true) {thr : Cost} (hthr : thr ≤ LETHAL_OBSTACLE) {vs : List (Vec K)}
    (hne : vs ≠ []) (heps : ∀ v ∈ vs, EpsOk m v) (footprint : Vec K → Prop)
    (hgrow : ∀ x c, footprint x → |c.x - x.x| ≤ m.resolution / 2 → |c.y - x.y| ≤ m.resolution / 2 → EvenOdd vs c) :
    ∃ r, polygonClear m l thr vs = .ok r ∧ (r = true → ∀ x, footprint x → m.atPosition l x ≠ .ok LETHAL_OBSTACLE) := by
  obtain ⟨r, h1, h2⟩ := C118_polygon hg hc hl thr hne heps
  refine ⟨r, h1, fun hrt x hx hlet => ?_⟩
  obtain ⟨i, c, hc1, hc2, hcx, hcy⟩ := lethal_centre hg hlet
  obtain ⟨v, hv, hlt⟩ := h2.mp hrt i c hc1 (hgrow x c hx hcx hcy)
  rw [hc2] at hv
  injection hv with hv
  exact UInt8.not_le.mpr hlt (hv ▸ hthr)

/-- C118. Through the copy of C115 the check with a circle is right for every map, moved or not. -/
theorem C118_moved (hg : m.Geo) (hc : m.Coherent) (hl : m.exists l = true) {thr : Cost} (hthr : thr ≤ LETHAL_OBSTACLE) :
    ∃ n, rebase m = (.ok (), n) ∧ ∀ p ρ, 0 ≤ ρ → EpsOk m ⟨p.x + (ρ + m.resolution), p.y + (ρ + m.resolution)⟩ →
      EpsOk m ⟨p.x - (ρ + m.resolution), p.y - (ρ + m.resolution)⟩ →
      ∃ r, circleClear n l thr p (ρ + m.resolution) = .ok r ∧ (r = true → m.RobotFits l ρ p) := by
  obtain ⟨n, e, ng, nc, ns, -, -, nr, -, nx, ni, nat⟩ := C115_same hg hc
  refine ⟨n, e, fun p ρ hρ htl hbr => ?_⟩
  have eps : ∀ q, EpsOk m q → EpsOk n q := fun q h => by unfold EpsOk at h ⊢; rw [nr]; exact h
  rw [← nr] at htl hbr ⊢
  have hpos := ng.res_pos
  obtain ⟨r, h1, h2⟩ := C118_robot_partial ng nc (by rw [nx, hl]) hthr p hρ (eps _ htl) (eps _ hbr)
    (seamFree_of_unmoved ng ns (eps _ htl) (eps _ hbr) (by simp only; linarith) (by simp only; linarith))
  exact ⟨r, h1, fun hrt x hx => by rw [← nat l x hl]; exact h2 hrt x hx⟩

end

/-- C118 with the robot's own radius is false: the circle has no centre of a lethal cell in it, and the robot touches one. -/
theorem C118_false_radius :
    Demo.pillar.Geo ∧ Demo.pillar.Coherent ∧ Demo.pillar.startIndex = ⟨0, 0⟩ ∧
      circleClear Demo.pillar "s" LETHAL_OBSTACLE ⟨0, 0⟩ (3 / 4) = .ok true ∧ ¬ Demo.pillar.RobotFits "s" (3 / 4) ⟨0, 0⟩ :=
  ⟨Demo.pillar_geo, Demo.pillar_coherent, Demo.pillar_start, by decide +kernel, fun h =>
    h ⟨-7 / 10, 0⟩ (by unfold UnderRobot; norm_num) (by decide +kernel)⟩

/-- A polygon thinner than a cell can run across a lethal cell and be found clear, for every threshold. -/
theorem C118_false_thin :
    Demo.pillar.Geo ∧ Demo.pillar.Coherent ∧ (∀ thr, polygonClear Demo.pillar "s" thr [⟨-2, 1 / 5⟩, ⟨2, 1 / 5⟩, ⟨2, 2 / 5⟩, ⟨-2, 2 / 5⟩] = .ok true) ∧
      ∃ x, EvenOdd [⟨-2, 1 / 5⟩, ⟨2, 1 / 5⟩, ⟨2, 2 / 5⟩, ⟨-2, 2 / 5⟩] x ∧ Demo.pillar.atPosition "s" x = .ok LETHAL_OBSTACLE := by
  refine ⟨Demo.pillar_geo, Demo.pillar_coherent, fun thr => ?_, ⟨-1, 3 / 10⟩, ?_, by decide +kernel⟩
  · obtain ⟨r, h1, h2⟩ := C118_polygon Demo.pillar_geo Demo.pillar_coherent (l := "s") (by decide +kernel) thr
      (vs := [⟨-2, 1 / 5⟩, ⟨2, 1 / 5⟩, ⟨2, 2 / 5⟩, ⟨-2, 2 / 5⟩]) (by simp) (by decide +kernel)
    rw [h1, h2.mpr]
    intro i p hp hin
    exfalso
    rw [← polygonInside_iff] at hin
    have hi : i.In Demo.pillar.size := by by_contra h; rw [getPosition_none h] at hp; cases hp
    have key : ∀ i ∈ colMajor 5 5, ∀ p ∈ Demo.pillar.getPosition i,
        polygonInside [⟨-2, 1 / 5⟩, ⟨2, 1 / 5⟩, ⟨2, 2 / 5⟩, ⟨-2, 2 / 5⟩] p = false := by decide +kernel
    have hi5 : i ∈ colMajor 5 5 := by
      have := mem_cells_of_in hi
      rwa [show Demo.pillar.size = ⟨5, 5⟩ from by decide +kernel] at this
    rw [key i hi5 p hp] at hin
    cases hin
  · rw [← polygonInside_iff]; decide +kernel

open Demo in
/-- With a circle of one cell more the check on the map with the pillar at (-1, 0) answers "not clear" for a robot of 0.75 at the origin, which it touches. -/
example : circleClear pillar "s" LETHAL_OBSTACLE ⟨0, 0⟩ (3 / 4 + pillar.resolution) = .ok false := by
  obtain ⟨r, h1, h2⟩ := C118_robot_partial pillar_geo pillar_coherent (l := "s") (by decide +kernel) (thr := LETHAL_OBSTACLE) (UInt8.le_refl _) ⟨0, 0⟩
    (ρ := 3 / 4) (by norm_num) (by decide +kernel) (by decide +kernel) (by decide +kernel)
  cases r
  · exact h1
  · exact absurd (h2 rfl) C118_false_radius.2.2.2.2

open Demo in
/-- A rectangle of 1 x 2 in front of the robot, grown by half a cell: found clear, so no point of it is in the lethal cell. -/
example : polygonClear pillar "s" 253 [⟨0, -2⟩, ⟨2, -2⟩, ⟨2, 2⟩, ⟨0, 2⟩] = .ok true ∧
    ∀ x, 1 / 2 < x.x ∧ x.x < 3 / 2 ∧ -1 < x.y ∧ x.y < 1 → pillar.atPosition "s" x ≠ .ok LETHAL_OBSTACLE := by
  have hres : pillar.resolution = 1 := by decide +kernel
  have h0 : polygonClear pillar "s" 253 [⟨0, -2⟩, ⟨2, -2⟩, ⟨2, 2⟩, ⟨0, 2⟩] = .ok true := by decide +kernel
  refine ⟨h0, ?_⟩
  obtain ⟨r, h1, h2⟩ := C118_grown pillar_geo pillar_coherent (l := "s") (by decide +kernel) (thr := 253) (by decide)
    (vs := [⟨0, -2⟩, ⟨2, -2⟩, ⟨2, 2⟩, ⟨0, 2⟩]) (by simp) (by decide +kernel)
    (fun x => 1 / 2 < x.x ∧ x.x < 3 / 2 ∧ -1 < x.y ∧ x.y < 1) (by
      rintro x c ⟨x0, x1, y0, y1⟩ hx hy
      rw [hres] at hx hy
      obtain ⟨a1, a2⟩ := abs_le.mp hx
      obtain ⟨b1, b2⟩ := abs_le.mp hy
      unfold EvenOdd polygonEdges RayHits
      have e1 : c.y < 2 := by linarith
      have e2 : -2 ≤ c.y := by linarith
      have e5 : c.x < 2 := by linarith
      have e6 : ¬ c.x < 0 := by linarith
      simp [List.countP_cons, e6]
      rw [if_pos (@decide_eq_true _ (_) ⟨.inl ⟨e2, e1⟩, (c.y + 2) / 4, by linarith, by linarith, by ring, by linarith⟩)])
  rw [h0] at h1
  injection h1 with h1
  exact h2 h1.symm

/-- On a map that was moved the circle iterator leaves cells out (D6), and a robot can be found clear that stands on a lethal cell. -/
theorem C118_false_moved :
    Demo.corridor.Geo ∧ Demo.corridor.Coherent ∧ circleClear Demo.corridor "s" LETHAL_OBSTACLE ⟨-3 / 2, 0⟩ (6 / 5) = .ok true ∧
      ¬ Demo.corridor.RobotFits "s" (1 / 5) ⟨-3 / 2, 0⟩ :=
  ⟨Demo.corridor_geo, Demo.corridor_coherent, by decide +kernel, fun h =>
    h ⟨-14 / 10, 0⟩ (by unfold UnderRobot; norm_num) (by decide +kernel)⟩

end CostMapModel

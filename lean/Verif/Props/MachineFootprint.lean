import Verif.Model.MachineFootprint
import Verif.Props.Footprint
import Verif.Props.MachinePlace
import Verif.Props.MachineShapes

/-! # C118: checking a footprint cell by cell, on the machine -/

set_option linter.unusedSectionVars false

namespace CostMapModel
open Inflation CostMap

section
variable {K : Type} [Field K] [LinearOrder K] [IsStrictOrderedRing K] [FloorRing K]
variable {w : World K} {F : Fmt K} {rf : K → K} {m : CostMap K} {l : String}

/-- The answer of the program, for an iterator that visits cells of the map. -/
theorem shapeClearI_eq {rd : K → K} (hc : m.Coherent) (hl : m.exists l = true) (thr : Cost) {it : ShapeIter K} {xs : List Idx}
    (hv : Visits (ShapeIter.opsI rd) it xs) (hnd : xs.Nodup) (hin : ∀ i ∈ xs, i.In m.size) :
    ∃ r, shapeClearI rd m l thr (.ok it) = .ok r ∧ (r = true ↔ ∀ i ∈ xs, ∃ c, m.at l i = .ok c ∧ c < thr) := by
  obtain ⟨cost, hcost⟩ : ∃ cost : Idx → Cost, ∀ i, i.In m.size → m.at l i = .ok (cost i) := by
    refine ⟨fun i => match m.at l i with | .ok v => v | _ => 0, fun i hi => ?_⟩
    obtain ⟨v, hv⟩ := hc.at_ok hl hi
    simp only [hv]
  have hlen : xs.length < m.size.x.toNat * m.size.y.toNat + 1 := by
    have hsub : xs ⊆ colMajor m.size.x.toNat m.size.y.toNat := fun i hi => mem_cells_of_in (hin i hi)
    have := (hnd.subperm hsub).length_le
    rw [colMajor_length] at this
    omega
  refine ⟨decide (∀ i ∈ xs, ¬ thr ≤ cost i), ?_, ?_⟩
  · unfold shapeClearI
    rw [Res.bind_ok]
    rw [Act.forIter_eq _ hv _ hlen, wayCells (cost := cost) fun i hi => hcost i (hin i hi)]
    simp
  · rw [decide_eq_true_iff]
    constructor
    · exact fun h i hi => ⟨_, hcost i (hin i hi), UInt8.not_le.mp (h i hi)⟩
    · intro h i hi
      obtain ⟨c, hcv, hlt⟩ := h i hi
      rw [hcost i (hin i hi)] at hcv
      injection hcv with hcv
      rw [hcv]
      exact UInt8.not_le.mpr hlt

/-- A position clearly inside the map that reads the lethal cost, and the computed centre of its cell. -/
theorem lethal_centreI {rd : K → K} (hrd : DoublePrecision rd) (h : m.GeoRd rd) (ht : m.Tame43) (hm : m.Small) {x : Vec K} (hx : m.Clearly rd x)
    (hlet : m.atPositionI rd l x = .ok LETHAL_OBSTACLE) :
    ∃ i c, m.getPositionRd rd i = some c ∧ m.at l i = .ok LETHAL_OBSTACLE ∧ |c.x - x.x| ≤ m.resolution / 2 + m.resolution / 32 ∧
      |c.y - x.y| ≤ m.resolution / 2 + m.resolution / 32 := by
  have ht' := tame_of_tame43 h ht
  rw [clearly_at hrd h ht' hm hx] at hlet
  obtain ⟨i, c, e, -, hc, cx, cy⟩ := C74_containing_cell_partial hrd h ht' hx.inside hx.x hx.y
  rw [e] at hlet
  have tol : ∀ {t : K}, t ≤ 2 ^ 43 * m.resolution → t / 2 ^ 48 ≤ m.resolution / 32 := fun {t} h => by
    rw [div_le_iff₀ (by positivity)]; linarith
  have tx : m.tolX ≤ m.resolution / 32 := tol ht.x
  have ty : m.tolY ≤ m.resolution / 32 := tol ht.y
  refine ⟨i, c, hc, hlet, ?_, ?_⟩
  · rw [abs_sub_comm]; linarith
  · rw [abs_sub_comm]; linarith

/-- C118 on the machine, a circle on a map whose buffer starts at zero: an answer, and "clear" only if every cell with a centre in the circle, up to
the rounding, is below the threshold. -/
theorem C118_circle_machine_partial {rd : K → K} (hrd : DoublePrecision rd) (h : m.GeoRd rd) (ht : m.Tame43) (hm : m.Small) (hc : m.Coherent)
    (hs : m.startIndex = ⟨0, 0⟩) (hl : m.exists l = true) (thr : Cost) {center : Vec K} {radius : K} (hr : 0 ≤ radius)
    (sx : |center.x| + radius ≤ 2 ^ 43 * m.resolution) (sy : |center.y| + radius ≤ 2 ^ 43 * m.resolution)
    (hb : BoxOkRd m (circleLow rd center radius) (circleHigh rd center radius)) :
    ∃ r, circleClearI rd m l thr center radius = .ok r ∧
      (r = true → ∀ i p, m.getPositionRd rd i = some p → dist2 p center ≤ (1 - 1 / 2 ^ 50) * radius ^ 2 → ∃ c, m.at l i = .ok c ∧ c < thr) ∧
      ((∀ i p, m.getPositionRd rd i = some p → dist2 p center ≤ (1 + 1 / 2 ^ 50) * radius ^ 2 → ∃ c, m.at l i = .ok c ∧ c < thr) → r = true) := by
  obtain ⟨it, xs, h1, h2, h3, h4, h5⟩ := C80_circle_unmoved_partial hrd h ht hs hr sx sy hb
  obtain ⟨e, hv⟩ := C79_circle hrd h ht hm hb
  obtain ⟨r, hr1, hr2⟩ := shapeClearI_eq hc hl thr (hv it xs h1 h2) h3 fun i hi => by
    obtain ⟨p, hp, -⟩ := h4 i hi
    exact getPositionRd_in hp
  unfold circleClearI
  rw [e, h1]
  refine ⟨r, hr1, fun hrt i p hp hd => hr2.mp hrt i (h5 i p hp hd), fun hall => hr2.mpr fun i hi => ?_⟩
  obtain ⟨p, hp, hd⟩ := h4 i hi
  exact hall i p hp hd

/-- C118 on the machine, a polygon, on any map: an answer; "clear" only if every cell whose centre is inside and clear of the edges by the rounding is
below the threshold. -/
theorem C118_polygon_machine_partial {rd : K → K} (hrd : DoublePrecision rd) (h : m.GeoRd rd) (ht : m.Tame43) (hm : m.Small) (hc : m.Coherent)
    (hl : m.exists l = true) (thr : Cost) {vs : List (Vec K)} {lo hi : Vec K} (hbox : IsBox vs lo hi) (hb : BoxOkRd m lo hi) {W : K}
    (hW : ∀ v ∈ vs, |v.x| ≤ W) (hs : W ≤ 2 ^ 43 * m.resolution) :
    ∃ r, polygonClearI rd m l thr vs = .ok r ∧
      (r = true → ∀ i p, m.getPositionRd rd i = some p → ClearOf (W / 2 ^ 49) vs p → EvenOdd vs p → ∃ c, m.at l i = .ok c ∧ c < thr) ∧
      ((∀ i p, m.getPositionRd rd i = some p → ¬ ClearOf (W / 2 ^ 49) vs p ∨ EvenOdd vs p → ∃ c, m.at l i = .ok c ∧ c < thr) → r = true) := by
  obtain ⟨it, xs, h1, h2, h3, h4, h5⟩ := C80_polygon_partial hrd h ht hbox hb hW hs
  obtain ⟨e, hv⟩ := C79_polygon hrd h ht hm hbox hb
  obtain ⟨r, hr1, hr2⟩ := shapeClearI_eq hc hl thr (hv it xs h1 h2) h3 fun i hi => by
    obtain ⟨p, hp, -⟩ := h4 i hi
    exact getPositionRd_in hp
  unfold polygonClearI
  rw [e, h1]
  refine ⟨r, hr1, fun hrt i p hp hcl hin => hr2.mp hrt i ((h5 i p hp hcl).mpr hin), fun hall => hr2.mpr fun i hi => ?_⟩
  obtain ⟨p, hp, -⟩ := h4 i hi
  refine hall i p hp ?_
  by_cases hcl : ClearOf (W / 2 ^ 49) vs p
  · exact .inr ((h5 i p hp hcl).mp hi)
  · exact .inl hcl

/-- A point within `q` along both axes of a point of the robot is within `ρ + 1.42 q` of its centre. -/
theorem offset_bound {a b u v q ρ : K} (ha : |a| ≤ q) (hb : |b| ≤ q) (huv : u ^ 2 + v ^ 2 ≤ ρ ^ 2) (hρ : 0 ≤ ρ) (hq : 0 ≤ q) :
    (a + u) ^ 2 + (b + v) ^ 2 ≤ (ρ + 142 / 100 * q) ^ 2 := by
  have s1 : a ^ 2 ≤ q ^ 2 := sq_le_sq' (abs_le.mp ha).1 (abs_le.mp ha).2
  have s2 : b ^ 2 ≤ q ^ 2 := sq_le_sq' (abs_le.mp hb).1 (abs_le.mp hb).2
  have hab : a ^ 2 + b ^ 2 ≤ (142 / 100 * q) ^ 2 := by
    have := sq_nonneg q
    have e : (142 / 100 * q) ^ 2 = 2 * q ^ 2 + 164 / 10000 * q ^ 2 := by ring
    rw [e]; linarith
  have hdot : a * u + b * v ≤ 142 / 100 * q * ρ := by
    refine (le_abs_self _).trans (abs_le_of_sq_le_sq ?_ (by positivity))
    have h1 : (a * u + b * v) ^ 2 ≤ (a ^ 2 + b ^ 2) * (u ^ 2 + v ^ 2) := by
      have e : (a ^ 2 + b ^ 2) * (u ^ 2 + v ^ 2) = (a * u + b * v) ^ 2 + (a * v - b * u) ^ 2 := by ring
      rw [e]; linarith [sq_nonneg (a * v - b * u)]
    rw [mul_pow]
    exact h1.trans (mul_le_mul hab huv (by positivity) (by positivity))
  have e : (a + u) ^ 2 + (b + v) ^ 2 = (a ^ 2 + b ^ 2) + 2 * (a * u + b * v) + (u ^ 2 + v ^ 2) := by ring
  have e' : (ρ + 142 / 100 * q) ^ 2 = (142 / 100 * q) ^ 2 + 2 * (142 / 100 * q * ρ) + ρ ^ 2 := by ring
  rw [e, e']; linarith

/-- The rounding of the circle test is less than what is left of the cell. -/
theorem inner_bound {t r R : K} (hr : 0 < r) (ht : 0 ≤ t) (hR : R ≤ 2 ^ 43 * r) (h : t ≤ R - r / 10) :
    t ^ 2 ≤ (1 - 1 / 2 ^ 50) * R ^ 2 := by
  have hR0 : 0 < R := by linarith
  have h1 : t ^ 2 ≤ t * R := by rw [sq]; exact mul_le_mul_of_nonneg_left (by linarith) ht
  have h2 : t * R ≤ (R - r / 10) * R := mul_le_mul_of_nonneg_right h hR0.le
  have h3 : R * R ≤ 2 ^ 43 * r * R := mul_le_mul_of_nonneg_right hR hR0.le
  have h4 : 0 < r * R := mul_pos hr hR0
  have e : (R - r / 10) * R = R * R - r * R / 10 := by ring
  have e' : 2 ^ 43 * r * R = 2 ^ 43 * (r * R) := by ring
  rw [e] at h2
  rw [e'] at h3
  rw [sq R]
  linarith

/-- C118 on the machine. Whatever calls have made the map, if its buffer starts at zero: if a circle is found clear whose radius is a cell more than
that of the robot, the robot fits. -/
theorem C118_robot_machine_partial (hrd : DoublePrecision F.rd) (hF : IntsExact F.rd) (htop : 2 ^ 31 ≤ F.top) (hm : HeldI w F rf m)
    (hs : m.startIndex = ⟨0, 0⟩) (hl : m.exists l = true) {thr : Cost} (hthr : thr ≤ LETHAL_OBSTACLE) {p : Vec K} {ρ radius : K} (hρ : 0 ≤ ρ)
    (hr : ρ + m.resolution ≤ radius) (sx : |p.x| + radius ≤ 2 ^ 43 * m.resolution) (sy : |p.y| + radius ≤ 2 ^ 43 * m.resolution)
    (hb : BoxOkRd m (circleLow F.rd p radius) (circleHigh F.rd p radius)) :
    ∃ r, circleClearI F.rd m l thr p radius = .ok r ∧ (r = true → m.RobotFitsI F.rd l ρ p) := by
  have hw := held_inWorld hrd hF htop hm
  have hg := hw.geo.res_pos
  obtain ⟨r, h1, h2, -⟩ := C118_circle_machine_partial hrd hw.geo hw.tame43 hw.small hw.coherent hs hl thr (radius := radius) (by linarith) sx sy hb
  refine ⟨r, h1, fun hrt x hx hxc hlet => ?_⟩
  obtain ⟨i, c, hc1, hc2, hcx, hcy⟩ := lethal_centreI hrd hw.geo hw.tame43 hw.small hxc hlet
  obtain ⟨v, hv, hlt⟩ := h2 hrt i c hc1 (by
    obtain ⟨q, hq⟩ : ∃ q, q = m.resolution / 2 + m.resolution / 32 := ⟨_, rfl⟩
    rw [← hq] at hcx hcy
    have hd := offset_bound hcx hcy hx hρ (by rw [hq]; linarith)
    have e : dist2 c p = (c.x - x.x + (x.x - p.x)) ^ 2 + (c.y - x.y + (x.y - p.y)) ^ 2 := by unfold dist2; ring
    rw [e]
    refine hd.trans (inner_bound hg (by rw [hq]; linarith) ?_ (by rw [hq]; linarith))
    linarith [abs_nonneg p.x])
  rw [hc2] at hv
  injection hv with hv
  exact UInt8.not_le.mpr hlt (hv ▸ hthr)

/-- C118 on the machine, through the copy of C115, for every map whose geometry fits the world, moved or not. -/
theorem C118_moved_machine (hrd : DoublePrecision F.rd) (hF : IntsExact F.rd) (htop : 2 ^ 31 ≤ F.top) (hm : HeldI w F rf m)
    (hfit : w.Geometry m.length m.resolution m.position) (hl : m.exists l = true) {thr : Cost} (hthr : thr ≤ LETHAL_OBSTACLE) :
    ∃ n, rebaseI F.rd m = (.ok (), n) ∧ ∀ p ρ radius, 0 ≤ ρ → ρ + m.resolution ≤ radius → |p.x| + radius ≤ 2 ^ 43 * m.resolution →
      |p.y| + radius ≤ 2 ^ 43 * m.resolution → BoxOkRd m (circleLow F.rd p radius) (circleHigh F.rd p radius) →
      ∃ r, circleClearI F.rd n l thr p radius = .ok r ∧ (r = true → m.RobotFitsI F.rd l ρ p) := by
  obtain ⟨n, e, nh, ns, nz, -, nr, np, nx, nc, nat⟩ := C115_same_machine hrd hF htop hm hfit
  refine ⟨n, e, fun p ρ radius hρ hr sx sy hb => ?_⟩
  rw [← nr] at hr sx sy
  obtain ⟨r, h1, h2⟩ := C118_robot_machine_partial hrd hF htop nh ns (by rw [nx, hl]) hthr hρ hr sx sy (by
    obtain ⟨b1, b2, b3, b4⟩ := hb
    rw [← nz, ← nr, ← np] at b1 b2 b3 b4
    exact ⟨b1, b2, b3, b4⟩)
  exact ⟨r, h1, fun hrt x hx hxc => by rw [← nat l x hl hxc]; exact h2 hrt x hx (nc x hxc)⟩

/-- C118 on the machine. Whatever calls have made the map, moved or not: if a polygon is found clear that contains, clear of its edges by the rounding,
everything within 17/32 of a cell, along both axes, of a footprint, then no point of the footprint clearly inside the map reads the lethal cost. -/
theorem C118_grown_machine (hrd : DoublePrecision F.rd) (hF : IntsExact F.rd) (htop : 2 ^ 31 ≤ F.top) (hm : HeldI w F rf m)
    (hl : m.exists l = true) {thr : Cost} (hthr : thr ≤ LETHAL_OBSTACLE) {vs : List (Vec K)} {lo hi : Vec K} (hbox : IsBox vs lo hi)
    (hb : BoxOkRd m lo hi) {W : K} (hW : ∀ v ∈ vs, |v.x| ≤ W) (hs : W ≤ 2 ^ 43 * m.resolution) (footprint : Vec K → Prop)
    (hgrow : ∀ x c, footprint x → |c.x - x.x| ≤ 17 / 32 * m.resolution → |c.y - x.y| ≤ 17 / 32 * m.resolution →
      EvenOdd vs c ∧ ClearOf (W / 2 ^ 49) vs c) :
    ∃ r, polygonClearI F.rd m l thr vs = .ok r ∧
      (r = true → ∀ x, footprint x → m.Clearly F.rd x → m.atPositionI F.rd l x ≠ .ok LETHAL_OBSTACLE) := by
  have hw := held_inWorld hrd hF htop hm
  obtain ⟨r, h1, h2, -⟩ := C118_polygon_machine_partial hrd hw.geo hw.tame43 hw.small hw.coherent hl thr hbox hb hW hs
  refine ⟨r, h1, fun hrt x hx hxc hlet => ?_⟩
  obtain ⟨i, c, hc1, hc2, hcx, hcy⟩ := lethal_centreI hrd hw.geo hw.tame43 hw.small hxc hlet
  obtain ⟨g1, g2⟩ := hgrow x c hx (by linarith) (by linarith)
  obtain ⟨v, hv, hlt⟩ := h2 hrt i c hc1 g2 g1
  rw [hc2] at hv
  injection hv with hv
  exact UInt8.not_le.mpr hlt (hv ▸ hthr)

end

open Demo in
/-- The map of cells of 0.1 with an obstacle at (0.1, 0), in `double`: a circle of 0.17 around (0.01, 0.02) is found not clear, because a robot of 6 cm
there touches the obstacle at (0.06, 0.02). -/
example : circleClearI toDouble tenthPillar "a" LETHAL_OBSTACLE ⟨1 / 100, 2 / 100⟩ (17 / 100) = .ok false := by
  obtain ⟨r, h1, h2⟩ := C118_robot_machine_partial (F := binary64) (rf := toFloat) toDouble_precision toDouble_ints top64 tenthPillar_held
    (by decide +kernel) (l := "a") (by decide +kernel) (thr := LETHAL_OBSTACLE) (UInt8.le_refl _) (p := ⟨1 / 100, 2 / 100⟩) (ρ := 6 / 100)
    (radius := 17 / 100) (by norm_num) (by decide +kernel) (by decide +kernel) (by decide +kernel)
    ⟨.inl (by decide +kernel), .inl (by decide +kernel), .inl (by decide +kernel), .inl (by decide +kernel)⟩
  cases r
  · exact h1
  · refine absurd (h2 rfl ⟨6 / 100, 2 / 100⟩ (by unfold UnderRobot; norm_num) (tenthPillar_clearly _ _ (by decide +kernel))) ?_
    rw [not_not]
    decide +kernel

open Demo in
/-- The same on the map whose buffer starts at cell (2, 5), with the obstacle at (0.3, -0.2), through the copy. -/
example : ∃ n, rebaseI toDouble turnedPillar = (.ok (), n) ∧ turnedPillar.startIndex = ⟨2, 5⟩ ∧
    circleClearI toDouble n "a" LETHAL_OBSTACLE ⟨21 / 100, -17 / 100⟩ (16 / 100) = .ok false := by
  obtain ⟨n, e, h⟩ := C118_moved_machine (F := binary64) (rf := toFloat) toDouble_precision toDouble_ints top64 turnedPillar_held
    ⟨by decide +kernel, by decide +kernel, by decide +kernel, by decide +kernel, by decide +kernel, by unfold PointIn; decide +kernel⟩
    (l := "a") (by decide +kernel) (thr := LETHAL_OBSTACLE) (UInt8.le_refl _)
  obtain ⟨r, h1, h2⟩ := h ⟨21 / 100, -17 / 100⟩ (5 / 100) (16 / 100) (by norm_num) (by decide +kernel) (by decide +kernel) (by decide +kernel)
    ⟨.inl (by decide +kernel), .inl (by decide +kernel), .inl (by decide +kernel), .inl (by decide +kernel)⟩
  refine ⟨n, e, by decide +kernel, ?_⟩
  cases r
  · exact h1
  · refine absurd (h2 rfl ⟨255 / 1000, -17 / 100⟩ (by unfold UnderRobot; norm_num) (turnedPillar_clearly _ _ (by decide +kernel))) ?_
    rw [not_not]
    decide +kernel

open Demo in
/-- A polygon across the seam of that map, found clear: the rectangle it was grown from touches no lethal cell. -/
example : polygonClearI toDouble turnedPillar "a" 253 [⟨-18 / 100, -18 / 100⟩, ⟨27 / 100, -18 / 100⟩, ⟨27 / 100, 18 / 100⟩, ⟨-18 / 100, 18 / 100⟩] =
      .ok true ∧
    ∀ x, -1 / 10 < x.x ∧ x.x < 2 / 10 ∧ -1 / 10 < x.y ∧ x.y < 1 / 10 → turnedPillar.Clearly toDouble x →
      turnedPillar.atPositionI toDouble "a" x ≠ .ok LETHAL_OBSTACLE := by
  have hres : turnedPillar.resolution ≤ 101 / 1000 := by decide +kernel
  have h0 : polygonClearI toDouble turnedPillar "a" 253
      [⟨-18 / 100, -18 / 100⟩, ⟨27 / 100, -18 / 100⟩, ⟨27 / 100, 18 / 100⟩, ⟨-18 / 100, 18 / 100⟩] = .ok true := by decide +kernel
  refine ⟨h0, ?_⟩
  obtain ⟨r, h1, h2⟩ := C118_grown_machine (F := binary64) (rf := toFloat) toDouble_precision toDouble_ints top64 turnedPillar_held
    (l := "a") (by decide +kernel) (thr := 253) (by decide)
    (vs := [⟨-18 / 100, -18 / 100⟩, ⟨27 / 100, -18 / 100⟩, ⟨27 / 100, 18 / 100⟩, ⟨-18 / 100, 18 / 100⟩])
    (lo := ⟨-18 / 100, -18 / 100⟩) (hi := ⟨27 / 100, 18 / 100⟩)
    ⟨by decide +kernel, by decide +kernel, by decide +kernel, by decide +kernel, by decide +kernel⟩
    ⟨.inl (by decide +kernel), .inl (by decide +kernel), .inl (by decide +kernel), .inl (by decide +kernel)⟩ (W := 1) (by decide +kernel)
    (by decide +kernel) (fun x => -1 / 10 < x.x ∧ x.x < 2 / 10 ∧ -1 / 10 < x.y ∧ x.y < 1 / 10) (by
      rintro x c ⟨x0, x1, y0, y1⟩ hx hy
      obtain ⟨a1, a2⟩ := abs_le.mp hx
      obtain ⟨b1, b2⟩ := abs_le.mp hy
      have e1 : -17 / 100 < c.x := by linarith
      have e2 : c.x < 26 / 100 := by linarith
      have e3 : -17 / 100 < c.y := by linarith
      have e4 : c.y < 17 / 100 := by linarith
      clear a1 a2 b1 b2 hx hy
      constructor
      · have r1 : ¬ RayHits c ⟨-18 / 100, -18 / 100⟩ ⟨27 / 100, -18 / 100⟩ := by
          rintro ⟨h | h, -⟩ <;> simp only at h <;> linarith [h.1, h.2]
        have r2 : RayHits c ⟨27 / 100, -18 / 100⟩ ⟨27 / 100, 18 / 100⟩ :=
          ⟨.inl ⟨by simp only; linarith, by simp only; linarith⟩, (c.y + 18 / 100) / (36 / 100), by linarith, by linarith, by simp only; ring,
            by simp only; linarith⟩
        have r3 : ¬ RayHits c ⟨27 / 100, 18 / 100⟩ ⟨-18 / 100, 18 / 100⟩ := by
          rintro ⟨h | h, -⟩ <;> simp only at h <;> linarith [h.1, h.2]
        have r4 : ¬ RayHits c ⟨-18 / 100, 18 / 100⟩ ⟨-18 / 100, -18 / 100⟩ := by
          rintro ⟨-, t, -, -, -, h⟩; simp only at h; linarith
        unfold EvenOdd polygonEdges
        simp [r1, r2, r3, r4]
      · intro e he t t0 t1 hyt
        have he' : e = (⟨-18 / 100, -18 / 100⟩, ⟨27 / 100, -18 / 100⟩) ∨ e = (⟨27 / 100, -18 / 100⟩, ⟨27 / 100, 18 / 100⟩) ∨
            e = (⟨27 / 100, 18 / 100⟩, ⟨-18 / 100, 18 / 100⟩) ∨ e = (⟨-18 / 100, 18 / 100⟩, ⟨-18 / 100, -18 / 100⟩) := by
          simpa [polygonEdges] using he
        rcases he' with rfl | rfl | rfl | rfl <;> simp only at hyt ⊢ <;> rw [lt_abs]
        · exfalso; linarith
        · left; linarith
        · exfalso; linarith
        · right; linarith)
  have h1' : polygonClearI toDouble turnedPillar "a" 253
      [⟨-18 / 100, -18 / 100⟩, ⟨27 / 100, -18 / 100⟩, ⟨27 / 100, 18 / 100⟩, ⟨-18 / 100, 18 / 100⟩] = .ok r := h1
  rw [h0] at h1'
  injection h1' with h1'
  exact h2 h1'.symm

end CostMapModel

import Verif.Props.MachineInflation
import Verif.Props.WayCheck
import Verif.Props.InflationHistory

/-! # C117: inflating a layer that was inflated before -/

set_option linter.unusedSectionVars false

namespace CostMapModel
open Inflation CostMap

theorem combined_again {u f g : Cost} (hf : f ≠ NO_INFORMATION) :
    (f ≤ g → combined (combined u f) g = combined u g) ∧ (g ≤ f → combined (combined u f) g = combined u f) := by
  have e : ∀ a b : Cost, a = b ↔ a.toNat = b.toNat := fun a b => UInt8.toNat_inj.symm
  unfold combined NO_INFORMATION INSCRIBED_OBSTACLE at *
  simp only [e, ne_eq, UInt8.le_iff_toNat_le, show UInt8.toNat 255 = 255 from rfl, show UInt8.toNat 253 = 253 from rfl] at *
  constructor <;> intro h <;> split_ifs <;> omega

theorem combined_stays_lethal {u f : Cost} (hf : f ≠ NO_INFORMATION) :
    (u = LETHAL_OBSTACLE → combined u f = LETHAL_OBSTACLE) ∧ (u ≠ LETHAL_OBSTACLE → f ≠ LETHAL_OBSTACLE → combined u f ≠ LETHAL_OBSTACLE) := by
  have hlt := f.toNat_lt
  have e : ∀ a b : Cost, a = b ↔ a.toNat = b.toNat := fun a b => UInt8.toNat_inj.symm
  unfold combined NO_INFORMATION INSCRIBED_OBSTACLE LETHAL_OBSTACLE at *
  simp only [e, ne_eq, UInt8.le_iff_toNat_le, show UInt8.toNat 255 = 255 from rfl, show UInt8.toNat 253 = 253 from rfl, show UInt8.toNat 254 = 254 from rfl] at *
  constructor
  · intro h; split_ifs <;> omega
  · intro h h'; split_ifs <;> omega

section
variable {K : Type} [Field K] [LinearOrder K] [IsStrictOrderedRing K] [FloorRing K]

/-- The run depends only on where the obstacles are. -/
theorem Inflation.Tags.run_lethal {pop : Pop K} {hyp : Nat → Nat → K} {n : Nat} {size : Idx} {s s' : Idx → Cost}
    (h : ∀ i, i.In size → (s i = LETHAL_OBSTACLE ↔ s' i = LETHAL_OBSTACLE)) : Tags.run pop hyp n size s = Tags.run pop hyp n size s' := by
  unfold Tags.run
  congr 1
  have : ∀ (xs : List Idx) (a : Tags K), (∀ i ∈ xs, i.In size) →
      Tags.seeds hyp n s xs a = Tags.seeds hyp n s' xs a := by
    intro xs
    induction xs with
    | nil => intro a _; rfl
    | cons x xs ih =>
      intro a hx
      unfold Tags.seeds at ih ⊢
      simp only [List.foldl_cons]
      have hx' := h x (hx x (by simp))
      by_cases hc : s x = LETHAL_OBSTACLE
      · rw [if_pos hc, if_pos (hx'.mp hc)]
        exact ih _ fun i hi => hx i (by simp [hi])
      · rw [if_neg hc, if_neg fun h => hc (hx'.mpr h)]
        exact ih _ fun i hi => hx i (by simp [hi])
  exact this _ _ fun i hi => in_of_mem_cells hi

variable {pop : Pop K} {hyp : Nat → Nat → K} {f g : K → Cost} {radius : K} {m : CostMap K} {o o' : Inflater K}

/-- C117. Inflate a layer with one cost computer, then inflate what came out with another one and the same radius. If the first computer marks nothing
but the obstacles themselves as lethal, then with a second one that never gives less the result is as if the source had been inflated with
it at once, and with a second one that never gives more nothing changes any more. -/
theorem C117_again (hc : m.Coherent) (hres : 0 < m.resolution) {ls : String} (hls : m.exists ls = true) (ld ld' : String)
    (hn : radiusInCells radius m.resolution < 2 ^ 32 - 1) (hpop : PopOk pop) (hh : HypOk hyp (radiusInCells radius m.resolution))
    (hf : ∀ d, 0 < d → f d ≠ LETHAL_OBSTACLE) (hf' : ∀ d, f d ≠ NO_INFORMATION)
    (ho : Used hyp f m.resolution o) (ho' : Used hyp g m.resolution o') (log log' : List Idx) :
    ∃ once twice direct, inflate pop hyp ls ld radius f ⟨o, m, log⟩ = (.ok (), once) ∧
      inflate pop hyp ld ld' radius g ⟨o', once.map, log'⟩ = (.ok (), twice) ∧
      inflate pop hyp ls ld radius g ⟨o', m, log'⟩ = (.ok (), direct) ∧
      ∀ i, i.In m.size →
        ((∀ d, f d ≤ g d) → twice.map.at ld' i = direct.map.at ld i) ∧ ((∀ d, g d ≤ f d) → twice.map.at ld' i = once.map.at ld i) := by
  obtain ⟨once, s, h1, h2, -, -, -, h6, h7, hs, h8, -, -⟩ :=
    inflate_run hc hres hls ld hn hpop hh (Used.ready ho).1 (.inr (Used.ready ho)) log
  have hn' : radiusInCells radius once.map.resolution < 2 ^ 32 - 1 := by rw [h2.resolution]; exact hn
  have ho'' : Used hyp g once.map.resolution o' := by rw [h2.resolution]; exact ho'
  obtain ⟨twice, s', k1, k2, -, -, -, -, -, ks, k8, -, -⟩ :=
    inflate_run (o := o') (computer := g) h7 (by rw [h2.resolution]; exact hres) h6 ld' hn' hpop (by rw [h2.resolution]; exact hh)
      (Used.ready ho'').1 (.inr (Used.ready ho'')) log'
  obtain ⟨direct, s'', d1, d2, -, -, -, -, -, ds, d8, -, -⟩ :=
    inflate_run (o := o') (computer := g) hc hres hls ld hn hpop hh (Used.ready ho').1 (.inr (Used.ready ho')) log'
  refine ⟨once, twice, direct, h1, k1, d1, ?_⟩
  rw [h2.size, h2.resolution] at k8
  rw [h2.size] at ks
  obtain ⟨hl, -⟩ := Loop.run (size := m.size) (s := s) hh hpop
  have e1 : ∀ i, i.In m.size → s i = s'' i := fun i hi => by
    have := (hs i hi).symm.trans (ds i hi)
    injection this
  have e2 : ∀ i, i.In m.size →
      s' i = (Tags.run pop hyp (radiusInCells radius m.resolution) m.size s).out (inflationCost hyp f m.resolution) s i := fun i hi => by
    have := (ks i hi).symm.trans (h8 i hi)
    injection this
  have hleth : ∀ i, i.In m.size → (s i = LETHAL_OBSTACLE ↔ s' i = LETHAL_OBSTACLE) := by
    intro i hi
    rw [e2 i hi]
    unfold Tags.out
    cases ht : (Tags.run pop hyp (radiusInCells radius m.resolution) m.size s).tag i with
    | none => exact Iff.rfl
    | some q =>
      simp only [superimpose_eq_combined]
      obtain ⟨-, hq, hsq, hd⟩ := hl.inv.t i q ht
      have hcl := combined_stays_lethal (u := s i) (hf' (m.resolution * hyp (i.x - q.x).natAbs (i.y - q.y).natAbs))
      constructor
      · exact hcl.1
      · intro h
        by_contra hne
        refine hcl.2 hne (hf _ (mul_pos hres ?_)) h
        by_contra hpos
        have hnear : Near (radiusInCells radius m.resolution) i q := by
          obtain ⟨b1, b2⟩ := natAbs_le_of_sq hd
          exact ⟨by omega, by omega⟩
        have := (cdist_le_iff hh hnear (Nat.zero_le _)).mp (by simpa [cdist] using not_lt.mp hpos)
        unfold sqDist at this
        have hx : (i.x - q.x).natAbs = 0 := by nlinarith [Nat.zero_le ((i.y - q.y).natAbs * (i.y - q.y).natAbs)]
        have hy : (i.y - q.y).natAbs = 0 := by nlinarith [Nat.zero_le ((i.x - q.x).natAbs * (i.x - q.x).natAbs)]
        have : i = q := by ext <;> omega
        exact hne (this ▸ hsq)
  have r1 := Tags.run_lethal (pop := pop) (hyp := hyp) (n := radiusInCells radius m.resolution) hleth
  have r2 := Tags.run_congr (pop := pop) (hyp := hyp) (n := radiusInCells radius m.resolution) e1
  intro i hi
  rw [k8 i hi, d8 i hi, h8 i hi, ← r1, ← r2]
  have e2 := e2 i hi
  unfold Tags.out at e2 ⊢
  rw [e2, ← e1 i hi]
  cases ht : (Tags.run pop hyp (radiusInCells radius m.resolution) m.size s).tag i with
  | none => exact ⟨fun _ => rfl, fun _ => rfl⟩
  | some q =>
    simp only [superimpose_eq_combined]
    have := combined_again (u := s i) (g := inflationCost hyp g m.resolution i q) (hf' (m.resolution * hyp (i.x - q.x).natAbs (i.y - q.y).natAbs))
    exact ⟨fun h => congrArg _ (this.1 (h _)), fun h => congrArg _ (this.2 (h _))⟩

/-- C117. Inflating the inflated layer in place with the same object, radius and computer changes nothing: all layers read the same afterwards. -/
theorem C117_twice (hc : m.Coherent) (hres : 0 < m.resolution) {ls : String} (hls : m.exists ls = true) (ld : String)
    (hn : radiusInCells radius m.resolution < 2 ^ 32 - 1) (hpop : PopOk pop) (hh : HypOk hyp (radiusInCells radius m.resolution))
    (hf : ∀ d, 0 < d → f d ≠ LETHAL_OBSTACLE) (hf' : ∀ d, f d ≠ NO_INFORMATION) (ho : Used hyp f m.resolution o) (log log' : List Idx) :
    ∃ once twice, inflate pop hyp ls ld radius f ⟨o, m, log⟩ = (.ok (), once) ∧
      inflate pop hyp ld ld radius f ⟨once.obj, once.map, log'⟩ = (.ok (), twice) ∧
      SameGeometry once.map twice.map ∧ SameMeta once.map twice.map ∧ twice.map.layers = once.map.layers ∧
      ∀ l i, i.In m.size → twice.map.at l i = once.map.at l i := by
  obtain ⟨once, s, h1, h2, -, -, -, h6, h7, -, -, -, -⟩ :=
    inflate_run hc hres hls ld hn hpop hh (Used.ready ho).1 (.inr (Used.ready ho)) log
  have hu : Used hyp f m.resolution once.obj := .call ho pop ls ld radius m log rfl h1
  obtain ⟨once', twice, direct, k1, k2, -, k4⟩ := C117_again hc hres hls ld ld hn hpop hh hf hf' ho hu log log'
  obtain rfl : once = once' := by rw [h1] at k1; exact (Prod.mk.inj k1).2
  have hn' : radiusInCells radius once.map.resolution < 2 ^ 32 - 1 := by rw [h2.resolution]; exact hn
  have hu' : Used hyp f once.map.resolution once.obj := by rw [h2.resolution]; exact hu
  obtain ⟨twice', g1, g2, g3, g4, g5, -⟩ := C38_only_near_obstacles (o := once.obj) (pop := pop) h7 (by rw [h2.resolution]; exact hres) h6 ld hn' hpop
    (by rw [h2.resolution]; exact hh) hu' log'
  obtain rfl : twice = twice' := by rw [k2] at g1; exact (Prod.mk.inj g1).2
  refine ⟨once, twice, h1, k2, g2, g3, by rw [g4, if_pos h6], fun l i hi => ?_⟩
  by_cases hl : l = ld
  · rw [hl]; exact (k4 i hi).2 fun d => UInt8.le_refl _
  · have hget := g5 l hl
    unfold CostMap.get at hget
    have hdata : twice.map.data l = once.map.data l := by
      cases ha : twice.map.data l <;> cases hb : once.map.data l <;> simp_all
    exact at_congr hdata i

/-- C117 on the machine: inflating the inflated layer in place with the same object, radius and computer changes no layer. -/
theorem C117_twice_machine {F : Fmt K} {rf : K → K} (hF : IntsExact F.rd) (hrf : FloatPrecision rf) (hc : m.Coherent)
    (hX : m.size.x < 2 ^ 31) (hY : m.size.y < 2 ^ 31) (hres : 0 < m.resolution) {ls : String} (hls : m.exists ls = true) (ld : String)
    (htop : |F.rd (radius / m.resolution)| < F.top) (hn : ⌈F.rd (radius / m.resolution)⌉.toNat < 2 ^ 32 - 2) (hpop : PopOk pop)
    (hh : HypOk hyp ⌈F.rd (radius / m.resolution)⌉.toNat) (hf : ∀ d, 0 < d → f d ≠ LETHAL_OBSTACLE) (hf' : ∀ d, f d ≠ NO_INFORMATION)
    (ho : UsedU F rf hyp f m.resolution o) (log log' : List Idx) :
    ∃ once twice, inflateU F rf pop hyp ls ld (.fin radius) f ⟨o, m, log⟩ = (.ok (), once) ∧
      inflateU F rf pop hyp ld ld (.fin radius) f ⟨once.obj, once.map, log'⟩ = (.ok (), twice) ∧
      SameGeometry once.map twice.map ∧ SameMeta once.map twice.map ∧ twice.map.layers = once.map.layers ∧
      ∀ l i, i.In m.size → twice.map.at l i = once.map.at l i := by
  have ho' := (ho.usedRd hres hF).used hres
  have pos : ∀ {x : K}, 0 < x → 0 < rf x := fun {x} hx => by
    have := abs_le.mp (hrf x)
    rw [abs_of_pos hx] at this
    have : x / 2 ^ 24 < x := div_lt_self hx (by norm_num)
    linarith
  obtain ⟨once, twice, h1, h2, h3, h4, h5, h6⟩ := C117_twice (radius := F.rd (radius / m.resolution) * m.resolution)
    (f := fun x => f (rf (rf m.resolution * (x / m.resolution)))) hc hres hls ld (by rw [radiusInCells_rd hres]; omega) hpop
    (by rw [radiusInCells_rd hres]; exact hh) (fun d hd => hf _ (pos (mul_pos (pos hres) (div_pos hd hres)))) (fun d => hf' _) ho' log log'
  obtain ⟨once', s, k1, k2, -, -, -, -, k7, -, -, -, k10⟩ := inflate_run (pop := pop) (radius := F.rd (radius / m.resolution) * m.resolution) hc hres hls ld
    (by rw [radiusInCells_rd hres]; omega) hpop (by rw [radiusInCells_rd hres]; exact hh) (Used.ready ho').1 (.inr (Used.ready ho')) log
  obtain rfl : once = once' := by rw [h1] at k1; exact (Prod.mk.inj k1).2
  refine ⟨once, twice, ?_, ?_, h3, h4, h5, h6⟩
  · rw [C94_same_partial rf hpop hyp ls ld f hc hres hX hY htop hn (Used.ready ho').1, C91_same F.rd rf pop hyp ls ld radius f hres]
    exact h1
  · have er := k2.resolution
    have hres' : 0 < once.map.resolution := by rw [er]; exact hres
    rw [C94_same_partial rf hpop hyp ld ld f k7 hres' (by rw [k2.size]; exact hX) (by rw [k2.size]; exact hY) (by rw [er]; exact htop)
      (by rw [er]; exact hn) k10, C91_same F.rd rf pop hyp ld ld radius f hres', er]
    exact h2

/-- The ROS inflation computer meets the conditions of C117. -/
theorem C117_ros {rf rd exp : K → K} (hrf : RoundOk rf) (hrd : RoundOk rd) (hd' : rd 252 = 252) (he : ExpOk exp) (r : K) {w : K} (hw : 0 ≤ w)
    (hros : ∀ d, 0 ≤ d → rosCost rf rd exp r w d = .ok (f d)) (hneg : ∀ d, d < 0 → f d ≠ NO_INFORMATION) :
    (∀ d, 0 < d → f d ≠ LETHAL_OBSTACLE) ∧ ∀ d, f d ≠ NO_INFORMATION := by
  obtain ⟨c0, c1, c2, -⟩ := C45_ros_cost_curve hrf hrd hd' he r hw
  have key : ∀ d, 0 < d → f d ≠ LETHAL_OBSTACLE ∧ f d ≠ NO_INFORMATION := fun d hd => by
    have h := hros d hd.le
    rcases le_or_gt d r with hle | hgt
    · rw [c1 d hd hle] at h
      injection h with h
      rw [← h]; decide
    · obtain ⟨c, e, hc⟩ := c2 d hd hgt
      rw [e] at h
      injection h with h
      rw [← h]
      constructor <;> rintro rfl <;> exact absurd hc (by decide)
  refine ⟨fun d hd => (key d hd).1, fun d => ?_⟩
  rcases lt_trichotomy d 0 with h | h | h
  · exact hneg d h
  · subst h
    have h := hros 0 le_rfl
    rw [c0] at h
    injection h with h
    rw [← h]; decide
  · exact (key d h).2

end

/-- C117 needs the condition on the computer: one that gives the lethal cost to every cell in range inflates what it has inflated again, for every queue. -/
theorem C117_false :
    ∃ (m : CostMap ℚ) (i : Idx), m.Coherent ∧ 0 < m.resolution ∧ m.exists "s" = true ∧ i.In m.size ∧
      ∀ (pop : Pop ℚ) (hyp : Nat → Nat → ℚ), PopOk pop → HypOk hyp 1 →
        ∃ once twice, inflate pop hyp "s" "t" 1 (fun _ => LETHAL_OBSTACLE) ⟨Inflater.new, m, []⟩ = (.ok (), once) ∧
          inflate pop hyp "t" "t" 1 (fun _ => LETHAL_OBSTACLE) ⟨once.obj, once.map, []⟩ = (.ok (), twice) ∧
          once.map.at "t" i = .ok FREE_SPACE ∧ twice.map.at "t" i = .ok LETHAL_OBSTACLE := by
  have hrad : radiusInCells 1 Demo.pillar.resolution = 1 := by decide +kernel
  refine ⟨Demo.pillar, ⟨1, 2⟩, Demo.pillar_coherent, Demo.pillar_geo.res_pos, by decide +kernel, by decide +kernel, fun pop hyp hpop hh => ?_⟩
  obtain ⟨once, s, h1, h2, -, -, -, h6, h7, -, -, -, -⟩ := inflate_run (radius := (1 : ℚ)) (computer := fun _ => LETHAL_OBSTACLE) (o := .new)
    Demo.pillar_coherent Demo.pillar_geo.res_pos (ls := "s") (by decide +kernel) "t" (by rw [hrad]; decide) hpop (by rw [hrad]; exact hh) rfl
    (.inr (Used.ready .new)) []
  obtain ⟨once', g1, -, -, -, -, g6⟩ := C38_only_near_obstacles (radius := (1 : ℚ)) (computer := fun _ => LETHAL_OBSTACLE) Demo.pillar_coherent
    Demo.pillar_geo.res_pos (ls := "s") (by decide +kernel) "t" (by rw [hrad]; decide) hpop (by rw [hrad]; exact hh) .new []
  obtain rfl : once = once' := by rw [h1] at g1; exact (Prod.mk.inj g1).2
  obtain ⟨once', k1, k2⟩ := C41_manhattan_range (radius := (1 : ℚ)) (computer := fun _ => LETHAL_OBSTACLE) Demo.pillar_coherent
    Demo.pillar_geo.res_pos (ls := "s") (by decide +kernel) "t" (by rw [hrad]; decide) hpop (by rw [hrad]; exact hh) .new []
  obtain rfl : once = once' := by rw [h1] at k1; exact (Prod.mk.inj k1).2
  have hrad' : radiusInCells 1 once.map.resolution = 1 := by rw [h2.resolution]; exact hrad
  have hu : Used hyp (fun _ => LETHAL_OBSTACLE) once.map.resolution once.obj := .call .new pop "s" "t" 1 Demo.pillar [] h2.resolution.symm h1
  obtain ⟨twice, t1, t2⟩ := C41_manhattan_range (radius := (1 : ℚ)) (computer := fun _ => LETHAL_OBSTACLE) h7
    (by rw [h2.resolution]; exact Demo.pillar_geo.res_pos) h6 "t" (by rw [hrad']; decide) hpop (by rw [hrad']; exact hh) hu []
  have a1 : once.map.at "t" ⟨1, 2⟩ = .ok FREE_SPACE := by
    rcases g6 ⟨1, 2⟩ FREE_SPACE (by decide +kernel) (by decide +kernel) with h | ⟨q, hq, hd, -⟩
    · exact h
    · rw [hrad, Demo.pillar_lethal hq] at hd
      exact absurd hd (by decide)
  have a2 : once.map.at "t" ⟨2, 2⟩ = .ok LETHAL_OBSTACLE := by
    obtain ⟨-, q, -, -, -, h⟩ := k2 ⟨2, 2⟩ FREE_SPACE ⟨3, 2⟩ (by decide +kernel) (by decide +kernel)
      ⟨by decide +kernel, by decide +kernel⟩ (by rw [hrad]; decide)
    rw [h]
    rfl
  refine ⟨once, twice, h1, t1, a1, ?_⟩
  obtain ⟨-, q, -, -, -, h⟩ := t2 ⟨1, 2⟩ FREE_SPACE ⟨2, 2⟩ (by rw [h2.size]; decide +kernel) a1
    ⟨by rw [h2.size]; decide +kernel, a2⟩ (by rw [hrad']; decide)
  rw [h]
  rfl

open Demo in
/-- The map with one obstacle, inflated twice: next to the obstacle both layers have the inscribed cost, and at the obstacle the lethal one. -/
example : ∃ once twice, inflate pop hyp "s" "t" 1 (fun d => if d ≤ 0 then LETHAL_OBSTACLE else 253) ⟨Inflater.new, pillar, []⟩ = (.ok (), once) ∧
    inflate pop hyp "t" "t" 1 (fun d => if d ≤ 0 then LETHAL_OBSTACLE else 253) ⟨once.obj, once.map, []⟩ = (.ok (), twice) ∧
    twice.map.at "t" ⟨3, 2⟩ = once.map.at "t" ⟨3, 2⟩ ∧ twice.map.at "t" ⟨1, 2⟩ = .ok FREE_SPACE := by
  have hrad : radiusInCells 1 pillar.resolution = 1 := by decide +kernel
  obtain ⟨once, twice, h1, h2, -, -, -, h⟩ := C117_twice (pop := pop) (hyp := hyp) (radius := 1) (f := fun d => if d ≤ 0 then LETHAL_OBSTACLE else 253)
    pillar_coherent pillar_geo.res_pos (ls := "s") (by decide +kernel) "t" (by rw [hrad]; decide) pop_ok (hyp_ok _)
    (fun d hd => by simp only [if_neg (not_le.mpr hd)]; decide) (fun d => by split_ifs <;> decide) .new [] []
  obtain ⟨once', g1, -, -, -, -, g6⟩ := C38_only_near_obstacles (pop := pop) (hyp := hyp) (radius := (1 : ℚ))
    (computer := fun d => if d ≤ 0 then LETHAL_OBSTACLE else 253) pillar_coherent
    pillar_geo.res_pos (ls := "s") (by decide +kernel) "t" (by rw [hrad]; decide) pop_ok (hyp_ok _) .new []
  obtain rfl : once = once' := by rw [h1] at g1; exact (Prod.mk.inj g1).2
  refine ⟨once, twice, h1, h2, h _ _ (by decide +kernel), ?_⟩
  rw [h _ _ (by decide +kernel)]
  rcases g6 ⟨1, 2⟩ FREE_SPACE (by decide +kernel) (by decide +kernel) with h | ⟨q, hq, hd, -⟩
  · exact h
  · rw [hrad, pillar_lethal hq] at hd
    exact absurd hd (by decide)

end CostMapModel

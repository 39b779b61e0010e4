import Verif.Spec.PlaceCheck
import Verif.Props.Rebase
import Verif.Props.Occupancy

/-! # C116: whether a robot fits, from one cost of an inflated layer -/

set_option linter.unusedSectionVars false

namespace CostMapModel
open Inflation CostMap

section
variable {K : Type} [Field K] [LinearOrder K] [IsStrictOrderedRing K] [FloorRing K]

theorem floor_apart (x y : K) : ((⌊x⌋ - ⌊y⌋).natAbs : K) < |x - y| + 1 := by
  rw [Nat.cast_natAbs, Int.cast_abs, Int.cast_sub]
  have h1 := Int.floor_le x
  have h2 := Int.lt_floor_add_one x
  have h3 := Int.floor_le y
  have h4 := Int.lt_floor_add_one y
  rw [abs_lt]
  constructor <;> linarith [neg_abs_le (x - y), le_abs_self (x - y)]

/-- The sum of the distances along the axes, for a point within a radius. -/
theorem sum_of_sq {x y ρ t : K} (h : x ^ 2 + y ^ 2 ≤ ρ ^ 2) (ht : 0 ≤ t) (hρ : 2 * ρ ^ 2 ≤ t ^ 2) : |x| + |y| ≤ t := by
  by_contra hc
  have hx := sq_abs x
  have hy := sq_abs y
  nlinarith [abs_nonneg x, abs_nonneg y, sq_nonneg (|x| - |y|)]

/-- The cells of two positions inside a map that was not moved are not much further apart than the positions. -/
theorem index_apart {m : CostMap K} (hg : m.Geo) (hs : m.startIndex = ⟨0, 0⟩) {p o : Vec K} (hp : m.isInside p = true)
    (ho : m.isInside o = true) {t : K} {n : Nat} (ht : |o.x - p.x| + |o.y - p.y| ≤ t) (hn : t ≤ ((n : K) - 1) * m.resolution) :
    manhattan (m.getIndex p).1 (m.getIndex o).1 ≤ n := by
  rw [getIndex_start hg hs hp, getIndex_start hg hs ho]
  have hr := hg.res_pos
  have fx := floor_apart ((m.position.x + m.length.x / 2 - p.x) / m.resolution) ((m.position.x + m.length.x / 2 - o.x) / m.resolution)
  have fy := floor_apart ((m.position.y + m.length.y / 2 - p.y) / m.resolution) ((m.position.y + m.length.y / 2 - o.y) / m.resolution)
  have e : ∀ c u v : K, |(c - u) / m.resolution - (c - v) / m.resolution| = |v - u| / m.resolution := by
    intro c u v
    rw [← sub_div, abs_div, abs_of_pos hr]
    congr 2; ring
  rw [e] at fx fy
  have hd : |o.x - p.x| / m.resolution + |o.y - p.y| / m.resolution ≤ (n : K) - 1 := by
    rw [← add_div, div_le_iff₀ hr]; linarith
  unfold manhattan cellU
  simp only
  have : (((⌊(m.position.x + m.length.x / 2 - p.x) / m.resolution⌋ - ⌊(m.position.x + m.length.x / 2 - o.x) / m.resolution⌋).natAbs
      + (⌊(m.position.y + m.length.y / 2 - p.y) / m.resolution⌋ - ⌊(m.position.y + m.length.y / 2 - o.y) / m.resolution⌋).natAbs : Nat) : K)
      < ((n + 1 : Nat) : K) := by push_cast; linarith
  have := Nat.cast_lt.mp this
  omega

variable {pop : Pop K} {hyp : Nat → Nat → K} {computer : K → Cost} {radius : K} {m : CostMap K} {o : Inflater K}

/-- C116. Inflate a map that was not moved and look at the cost of one position of it. The check always gives an answer; if the inflation gives at
least the threshold up to the radius and the answer is "clear", then no point of a round robot at that position is in a lethal cell, if
the robot's radius is at most `1/√2` of the inflation radius less one cell. -/
theorem C116_fits (hg : m.Geo) (hc : m.Coherent) (hs : m.startIndex = ⟨0, 0⟩) {ls : String}
    (hls : m.exists ls = true) (ld : String) (hn : radiusInCells radius m.resolution < 2 ^ 32 - 1) (hpop : PopOk pop)
    (hh : HypOk hyp (radiusInCells radius m.resolution)) (ho : Used hyp computer m.resolution o) (log : List Idx) {thr : Cost}
    (hthr : ∀ d, d ≤ m.resolution * (radiusInCells radius m.resolution : K) → thr ≤ computer d) {ρ : K}
    (h1 : 1 ≤ radiusInCells radius m.resolution)
    (hρ : 2 * ρ ^ 2 ≤ (((radiusInCells radius m.resolution : K) - 1) * m.resolution) ^ 2) :
    ∃ st', inflate pop hyp ls ld radius computer ⟨o, m, log⟩ = (.ok (), st') ∧
      ∀ p, m.isInside p = true → ∃ r, placeClear st'.map ld thr p = .ok r ∧ (r = true → m.RobotFits ls ρ p) := by
  obtain ⟨st', h2, hgeo, -, -, -, hat⟩ := C38_only_near_obstacles hc hg.res_pos hls ld hn hpop hh ho log
  obtain ⟨st'', h2', hman⟩ := C41_manhattan_range hc hg.res_pos hls ld hn hpop hh ho log
  obtain rfl : st' = st'' := by rw [h2] at h2'; exact (Prod.mk.inj h2').2
  refine ⟨st', h2, fun p hp => ?_⟩
  have hins : st'.map.isInside p = true := by rw [← getIndex_snd, getIndex_congr hgeo, getIndex_snd, hp]
  have hin := getIndex_in hg hp
  obtain ⟨v, hv⟩ := hc.at_ok hls hin
  obtain ⟨c, hcv⟩ : ∃ c, st'.map.at ld (m.getIndex p).1 = .ok c := by
    rcases hat _ v hin hv with h | ⟨q, -, -, h⟩
    · exact ⟨_, h⟩
    · exact ⟨_, h⟩
  have hread : st'.map.atPosition ld p = .ok c := by rw [atPosition_inside hins, getIndex_congr hgeo, hcv]
  refine ⟨decide (c < thr), by unfold placeClear; rw [hread]; rfl, fun hr x hx hlet => ?_⟩
  have hlt : c < thr := of_decide_eq_true hr
  have hxin : m.isInside x = true := by
    by_contra h
    rw [atPosition_outside (by simpa using h)] at hlet
    cases hlet
  rw [atPosition_inside hxin] at hlet
  have hR : (1 : K) ≤ (radiusInCells radius m.resolution : K) := by exact_mod_cast h1
  have hm := index_apart hg hs hp hxin (n := radiusInCells radius m.resolution)
    (sum_of_sq hx (mul_nonneg (by linarith) hg.res_pos.le) hρ) le_rfl
  obtain ⟨-, q, hq, hsq, -, hval⟩ := hman _ v _ hin hv ⟨getIndex_in hg hxin, hlet⟩ hm
  rw [hcv] at hval
  injection hval with hval
  have : thr ≤ c := by
    rw [hval]
    refine UInt8.le_trans ?_ (combined_ge _ _)
    apply hthr
    refine mul_le_mul_of_nonneg_left ?_ hg.res_pos.le
    generalize radiusInCells radius m.resolution = N at *
    have hle : sqDist (m.getIndex p).1 q ≤ N * N := hsq.trans (Nat.mul_le_mul hm hm)
    unfold sqDist at hle
    refine (hh _ _ N ?_ ?_ le_rfl).mpr hle
    · nlinarith [Nat.zero_le (((m.getIndex p).1.y - q.y).natAbs * ((m.getIndex p).1.y - q.y).natAbs)]
    · nlinarith [Nat.zero_le (((m.getIndex p).1.x - q.x).natAbs * ((m.getIndex p).1.x - q.x).natAbs)]
  exact UInt8.not_le.mpr hlt this

/-- C116. The check does not cry wolf: if a robot one cell larger than the inflation radius fits at the position, and the cost of the source layer there is
below the threshold, then the answer is "clear". -/
theorem C116_complete (hg : m.Geo) (hc : m.Coherent) (hs : m.startIndex = ⟨0, 0⟩) {ls : String}
    (hls : m.exists ls = true) (ld : String) (hn : radiusInCells radius m.resolution < 2 ^ 32 - 1) (hpop : PopOk pop)
    (hh : HypOk hyp (radiusInCells radius m.resolution)) (ho : Used hyp computer m.resolution o) (log : List Idx) (thr : Cost) :
    ∃ st', inflate pop hyp ls ld radius computer ⟨o, m, log⟩ = (.ok (), st') ∧
      ∀ p v, m.atPosition ls p = .ok v → v < thr → m.RobotFits ls (((radiusInCells radius m.resolution : K) + 1) * m.resolution) p →
        placeClear st'.map ld thr p = .ok true := by
  obtain ⟨st', h2, hgeo, -, -, -, hat⟩ := C38_only_near_obstacles hc hg.res_pos hls ld hn hpop hh ho log
  refine ⟨st', h2, fun p v hv hlt hfit => ?_⟩
  have hp : m.isInside p = true := by
    by_contra h
    rw [atPosition_outside (by simpa using h)] at hv
    cases hv
  have hins : st'.map.isInside p = true := by rw [← getIndex_snd, getIndex_congr hgeo, getIndex_snd, hp]
  have hin := getIndex_in hg hp
  rw [atPosition_inside hp] at hv
  unfold placeClear
  rw [atPosition_inside hins, getIndex_congr hgeo]
  rcases hat _ v hin hv with h | ⟨q, hq, hd, -⟩
  · rw [h, Res.bind_ok, decide_eq_true hlt]
  exfalso
  obtain ⟨x, x1, x2, x3⟩ := C10_index_position_index hg hq.1
  have hxi : m.isInside x = true := by rw [← getIndex_snd, x3]
  refine hfit x ?_ (by rw [atPosition_inside hxi, x3]; exact hq.2)
  have hx := (getPosition_start_zero hs x1).2
  rw [getIndex_start hg hs hp] at hd
  have hr := hg.res_pos
  have ax : ∀ (c u r : K) (k : Int), 0 < r → |c - r / 2 - r * k - u| ≤ (((⌊(c - u) / r⌋ - k).natAbs : K) + 1 / 2) * r := by
    intro c u r k hr
    have f1 := Int.floor_le ((c - u) / r)
    have f2 := Int.lt_floor_add_one ((c - u) / r)
    rw [le_div_iff₀ hr] at f1
    rw [div_lt_iff₀ hr] at f2
    rw [Nat.cast_natAbs, Int.cast_abs, Int.cast_sub]
    have g1 := mul_le_mul_of_nonneg_right (le_abs_self ((⌊(c - u) / r⌋ : K) - k)) hr.le
    have g2 := mul_le_mul_of_nonneg_right (neg_abs_le ((⌊(c - u) / r⌋ : K) - k)) hr.le
    rw [abs_le]
    constructor <;> nlinarith
  have axx := ax (m.position.x + m.length.x / 2) p.x m.resolution q.x hr
  have axy := ax (m.position.y + m.length.y / 2) p.y m.resolution q.y hr
  unfold sqDist cellU at hd
  simp only at hd
  generalize (⌊(m.position.x + m.length.x / 2 - p.x) / m.resolution⌋ - q.x).natAbs = a at *
  generalize (⌊(m.position.y + m.length.y / 2 - p.y) / m.resolution⌋ - q.y).natAbs = b at *
  generalize radiusInCells radius m.resolution = N at *
  have hab : (a : K) * a + b * b ≤ N * N := by exact_mod_cast hd
  have hab2 : (a : K) + b ≤ 2 * N := by
    have a0 : (0 : K) ≤ a := Nat.cast_nonneg a
    have b0 : (0 : K) ≤ b := Nat.cast_nonneg b
    have n0 : (0 : K) ≤ N := Nat.cast_nonneg N
    have ha : (a : K) ≤ N := by nlinarith
    have hb : (b : K) ≤ N := by nlinarith
    linarith
  unfold UnderRobot
  rw [hx]
  unfold center
  simp only
  have sx := pow_le_pow_left₀ (abs_nonneg _) axx 2
  have sy := pow_le_pow_left₀ (abs_nonneg _) axy 2
  rw [sq_abs] at sx sy
  refine (add_le_add sx sy).trans ?_
  have : ((a : K) + 1 / 2) ^ 2 + (b + 1 / 2) ^ 2 ≤ (N + 1) ^ 2 := by nlinarith
  rw [mul_pow, mul_pow, mul_pow, ← add_mul]
  exact mul_le_mul_of_nonneg_right this (sq_nonneg _)

/-- C116, for the whole of a straight way: a way that the check of C113 finds clear can be driven by a round robot whose radius is at most `1/√2` of
the inflation radius less three cells. -/
theorem C116_way (norm : Vec K → K) (hg : m.Geo) (hc : m.Coherent) (hs : m.startIndex = ⟨0, 0⟩) {ls : String}
    (hls : m.exists ls = true) (ld : String) (hn : radiusInCells radius m.resolution < 2 ^ 32 - 1) (hpop : PopOk pop)
    (hh : HypOk hyp (radiusInCells radius m.resolution)) (ho : Used hyp computer m.resolution o) (log : List Idx) {thr : Cost}
    (hthr : ∀ d, d ≤ m.resolution * (radiusInCells radius m.resolution : K) → thr ≤ computer d) {ρ : K}
    (h1 : 3 ≤ radiusInCells radius m.resolution)
    (hρ : 2 * ρ ^ 2 ≤ (((radiusInCells radius m.resolution : K) - 3) * m.resolution) ^ 2) :
    ∃ st', inflate pop hyp ls ld radius computer ⟨o, m, log⟩ = (.ok (), st') ∧
      ∀ a b, m.isInside a = true → m.isInside b = true → ∃ r, wayClear norm st'.map ld thr a b = .ok r ∧
        (r = true → ∀ p, OnWay a b p → m.RobotFits ls ρ p) := by
  obtain ⟨st', h2, h⟩ := C113_clearance norm hg hc hs hls ld hn hpop hh ho log hthr
  refine ⟨st', h2, fun a b ha hb => ?_⟩
  obtain ⟨r, hr, h⟩ := h a b ha hb
  refine ⟨r, hr, fun hrt p hp x hx hlet => ?_⟩
  obtain ⟨hpin, hfar⟩ := h hrt p hp
  have hxin : m.isInside x = true := by
    by_contra h
    rw [atPosition_outside (by simpa using h)] at hlet
    cases hlet
  rw [atPosition_inside hxin] at hlet
  have hfar := hfar _ ⟨getIndex_in hg hxin, hlet⟩
  have hR : (3 : K) ≤ (radiusInCells radius m.resolution : K) := by exact_mod_cast h1
  have hm := index_apart hg hs hpin hxin (n := radiusInCells radius m.resolution - 2)
    (sum_of_sq hx (mul_nonneg (by linarith) hg.res_pos.le) hρ) (by rw [Nat.cast_sub (by omega)]; push_cast; linarith)
  omega

/-- C116 for every map, moved or not, through the copy of C115. -/
theorem C116_moved (norm : Vec K → K) (hg : m.Geo) (hc : m.Coherent) {ls : String} (hls : m.exists ls = true) (ld : String)
    (hn : radiusInCells radius m.resolution < 2 ^ 32 - 1) (hpop : PopOk pop)
    (hh : HypOk hyp (radiusInCells radius m.resolution)) (ho : Used hyp computer m.resolution o) (log : List Idx) {thr : Cost}
    (hthr : ∀ d, d ≤ m.resolution * (radiusInCells radius m.resolution : K) → thr ≤ computer d) {ρ : K}
    (h1 : 3 ≤ radiusInCells radius m.resolution)
    (hρ : 2 * ρ ^ 2 ≤ (((radiusInCells radius m.resolution : K) - 3) * m.resolution) ^ 2) :
    ∃ n st', rebase m = (.ok (), n) ∧ inflate pop hyp ls ld radius computer ⟨o, n, log⟩ = (.ok (), st') ∧
      (∀ p, m.isInside p = true → ∃ r, placeClear st'.map ld thr p = .ok r ∧ (r = true → m.RobotFits ls ρ p)) ∧
      ∀ a b, m.isInside a = true → m.isInside b = true → ∃ r, wayClear norm st'.map ld thr a b = .ok r ∧
        (r = true → ∀ p, OnWay a b p → m.RobotFits ls ρ p) := by
  obtain ⟨n, e, ng, nc, ns, -, -, nr, -, nx, ni, nat⟩ := C115_same hg hc
  have hfit : ∀ {p}, n.RobotFits ls ρ p → m.RobotFits ls ρ p := fun h x hx => by rw [← nat ls x hls]; exact h x hx
  have hR : (3 : K) ≤ (radiusInCells radius m.resolution : K) := by exact_mod_cast h1
  have hρ1 : 2 * ρ ^ 2 ≤ (((radiusInCells radius m.resolution : K) - 1) * m.resolution) ^ 2 := by
    refine hρ.trans (pow_le_pow_left₀ (mul_nonneg (by linarith) hg.res_pos.le) ?_ 2)
    exact mul_le_mul_of_nonneg_right (by linarith) hg.res_pos.le
  rw [← nr] at hn hh ho hthr h1 hρ hρ1
  have hls' : n.exists ls = true := by rw [nx, hls]
  obtain ⟨st', h2, hf⟩ := C116_fits (o := o) (pop := pop) ng nc ns hls' ld hn hpop hh ho log hthr (by omega) hρ1
  obtain ⟨st'', h2', hw⟩ := C116_way (o := o) (pop := pop) norm ng nc ns hls' ld hn hpop hh ho log hthr h1 hρ
  obtain rfl : st' = st'' := by rw [h2] at h2'; exact (Prod.mk.inj h2').2
  refine ⟨n, st', e, h2, fun p hp => ?_, fun a b ha hb => ?_⟩
  · obtain ⟨r, hr, h⟩ := hf p (by rw [ni, hp])
    exact ⟨r, hr, fun hrt => hfit (h hrt)⟩
  · obtain ⟨r, hr, h⟩ := hw a b (by rw [ni, ha]) (by rw [ni, hb])
    exact ⟨r, hr, fun hrt p hp => hfit (h hrt p hp)⟩

end

/-- C116 needs a smaller robot than the inflation radius: inflated by two metres with whatever queue, distances, computer and threshold, a position
of this map is found clear although a robot of that radius touches a lethal cell there. -/
theorem C116_false :
    ∃ (m : CostMap ℚ) (p : Vec ℚ), m.Geo ∧ m.Coherent ∧ m.startIndex = ⟨0, 0⟩ ∧ m.exists "s" = true ∧ m.isInside p = true ∧
      ¬ m.RobotFits "s" 2 p ∧
      ∀ (pop : Pop ℚ) (hyp : Nat → Nat → ℚ) (computer : ℚ → Cost) (thr : Cost), PopOk pop → HypOk hyp 2 → FREE_SPACE < thr →
        ∃ st', inflate pop hyp "s" "t" 2 computer ⟨Inflater.new, m, []⟩ = (.ok (), st') ∧ placeClear st'.map "t" thr p = .ok true := by
  have hrad : radiusInCells 2 Demo.pillar.resolution = 2 := by decide +kernel
  have hp : Demo.pillar.isInside ⟨1, 1⟩ = true := by decide +kernel
  refine ⟨Demo.pillar, ⟨1, 1⟩, Demo.pillar_geo, Demo.pillar_coherent, Demo.pillar_start, by decide +kernel, hp, ?_, ?_⟩
  · intro h
    exact h ⟨-3 / 4, 1 / 4⟩ (by unfold UnderRobot; norm_num) (by decide +kernel)
  intro pop hyp computer thr hpop hh hthr
  obtain ⟨st', h1, hgeo, -, -, -, hat⟩ := C38_only_near_obstacles (radius := (2 : ℚ)) (computer := computer) Demo.pillar_coherent
    Demo.pillar_geo.res_pos (ls := "s") (by decide +kernel) "t" (by rw [hrad]; decide) hpop (by rw [hrad]; exact hh) .new []
  refine ⟨st', h1, ?_⟩
  have hins : st'.map.isInside ⟨1, 1⟩ = true := by rw [← getIndex_snd, getIndex_congr hgeo, getIndex_snd, hp]
  have hg : (Demo.pillar.getIndex ⟨1, 1⟩).1 = ⟨1, 1⟩ := by decide +kernel
  have hread : st'.map.at "t" ⟨1, 1⟩ = .ok FREE_SPACE := by
    rcases hat ⟨1, 1⟩ FREE_SPACE (by decide +kernel) (by decide +kernel) with h | ⟨q, hq, hd, -⟩
    · exact h
    · rw [hrad, Demo.pillar_lethal hq] at hd
      exact absurd hd (by decide)
  unfold placeClear
  rw [atPosition_inside hins, getIndex_congr hgeo, hg, hread, Res.bind_ok, decide_eq_true hthr]

open Demo in
/-- On the moved map, inflated by four cells: a robot of radius 0.7 does not fit at x = -2, next to the obstacle, and the check says so. -/
example : ∃ n st', rebase corridor = (.ok (), n) ∧ inflate pop hyp "s" "t" 4 (fun _ => 253) ⟨Inflater.new, n, []⟩ = (.ok (), st') ∧
    ¬ corridor.RobotFits "s" (7 / 10) ⟨-2, 0⟩ ∧ placeClear st'.map "t" 253 ⟨-2, 0⟩ = .ok false := by
  have hrad : radiusInCells 4 corridor.resolution = 4 := by decide +kernel
  have hres : corridor.resolution = 1 := by decide +kernel
  obtain ⟨n, st', e, h1, h, -⟩ := C116_moved (radius := 4) (computer := fun _ => (253 : Cost)) (ρ := 7 / 10) (fun _ => 1) corridor_geo
    corridor_coherent (ls := "s") (by decide +kernel) "t" (by rw [hrad]; decide) pop_ok (hyp_ok _) .new [] (thr := 253)
    (fun _ _ => UInt8.le_refl _) (by rw [hrad]; decide) (by rw [hrad, hres]; norm_num)
  have hnot : ¬ corridor.RobotFits "s" (7 / 10) ⟨-2, 0⟩ := fun h =>
    h ⟨-14 / 10, 0⟩ (by unfold UnderRobot; norm_num) (by decide +kernel)
  refine ⟨n, st', e, h1, hnot, ?_⟩
  obtain ⟨r, hr, h⟩ := h ⟨-2, 0⟩ (by decide +kernel)
  cases r
  · exact hr
  · exact absurd (h rfl) hnot

open Demo in
/-- Far enough from the obstacle the check says "clear": a robot of radius 2 fits at (2, 2) of the map with the pillar at (-1, 0). -/
example : ∃ st', inflate pop hyp "s" "t" 1 (fun _ => 253) ⟨Inflater.new, pillar, []⟩ = (.ok (), st') ∧
    placeClear st'.map "t" 253 ⟨2, 2⟩ = .ok true := by
  have hrad : radiusInCells 1 pillar.resolution = 1 := by decide +kernel
  have hres : pillar.resolution = 1 := by decide +kernel
  obtain ⟨st', h1, h⟩ := C116_complete (radius := 1) (computer := fun _ => (253 : Cost)) pillar_geo
    pillar_coherent pillar_start (ls := "s") (by decide +kernel) "t" (by rw [hrad]; decide) pop_ok (hyp_ok _) .new [] 253
  refine ⟨st', h1, h ⟨2, 2⟩ 0 (by decide +kernel) (by decide) fun x hx hlet => ?_⟩
  rw [hrad, hres] at hx
  have hxin : pillar.isInside x = true := by
    by_contra h
    rw [atPosition_outside (by simpa using h)] at hlet
    cases hlet
  rw [atPosition_inside hxin] at hlet
  have he := pillar_lethal ⟨getIndex_in pillar_geo hxin, hlet⟩
  rw [getIndex_start pillar_geo pillar_start hxin] at he
  have hex := congrArg Idx.x he
  unfold cellU at hex
  rw [show pillar.position = ⟨0, 0⟩ from by decide +kernel, show pillar.length = ⟨5, 5⟩ from by decide +kernel, hres] at hex
  simp only at hex
  rw [Int.floor_eq_iff] at hex
  unfold UnderRobot at hx
  norm_num at hex hx
  nlinarith [sq_nonneg (x.y - 2), hex.1]

end CostMapModel

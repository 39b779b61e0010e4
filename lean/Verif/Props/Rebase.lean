import Verif.Spec.Rebase
import Verif.Props.WayCheck
import Verif.Props.Merge
import Verif.Lemmas.Submap

/-! # C115: inflating a moved map, and a copy whose buffer starts at zero -/

set_option linter.unusedSectionVars false

namespace CostMapModel
open Inflation CostMap

section
variable {K : Type} [Field K] [LinearOrder K] [IsStrictOrderedRing K] [FloorRing K]

/-- The empty map the copy starts from. -/
theorem rebase_geometry {m : CostMap K} (hg : m.Geo) :
    ∃ n, setGeometry m.length m.resolution m.position (CostMap.new []) = (.ok (), n) ∧ n.Geo ∧ n.Coherent ∧ n.startIndex = ⟨0, 0⟩ ∧
      n.size = m.size ∧ n.length = m.length ∧ n.resolution = m.resolution ∧ n.position = m.position ∧ n.layers = [] ∧
      n.basicLayers = [] := by
  have hx : (0 : K) < m.length.x := by rw [hg.len_x]; exact mul_pos (by exact_mod_cast hg.size_x) hg.res_pos
  have hy : (0 : K) < m.length.y := by rw [hg.len_y]; exact mul_pos (by exact_mod_cast hg.size_y) hg.res_pos
  have sx := roundHalfAway_mul hg.size_x hg.res_pos
  have sy := roundHalfAway_mul hg.size_y hg.res_pos
  rw [← hg.len_x] at sx
  rw [← hg.len_y] at sy
  refine ⟨{ ((CostMap.new []).resize m.size).clearAll with
      resolution := m.resolution, length := ⟨(m.size.x : K) * m.resolution, (m.size.y : K) * m.resolution⟩, position := m.position,
      startIndex := 0 }, ?_, ⟨hg.res_pos, hg.size_x, hg.size_y, rfl, rfl, ⟨le_rfl, hg.size_x, le_rfl, hg.size_y⟩⟩,
    ⟨List.nodup_nil, ?_, ?_⟩, rfl, rfl, ?_, rfl, rfl, rfl, rfl⟩
  · unfold setGeometry
    rw [if_neg (not_not.mpr hx), if_neg (not_not.mpr hy), if_neg (not_not.mpr hg.res_pos)]
    simp only [sx, sy]
  · intro l; simp [clearAll, resize, CostMap.new]
  · intro l a h; simp [clearAll, resize, CostMap.new] at h
  · ext
    · exact hg.len_x.symm
    · exact hg.len_y.symm

/-- C115. The copy: the same geometry apart from the start index, which is zero, the same layers, and at every position the same costs. -/
theorem C115_same {m : CostMap K} (hg : m.Geo) (hc : m.Coherent) :
    ∃ n, rebase m = (.ok (), n) ∧ n.Geo ∧ n.Coherent ∧ n.startIndex = ⟨0, 0⟩ ∧ n.size = m.size ∧ n.length = m.length ∧
      n.resolution = m.resolution ∧ n.position = m.position ∧ (∀ l, n.exists l = m.exists l) ∧
      (∀ p, n.isInside p = m.isInside p) ∧ ∀ l p, m.exists l = true → n.atPosition l p = m.atPosition l p := by
  obtain ⟨n, e, ng, nc, ns, nz, nl, nr, np, nls, nb⟩ := rebase_geometry hg
  obtain ⟨n', e', sg, sm, sc, sx, sat⟩ := C33_merges_cell_by_cell ng nc hg hc true true [] m.layers rfl (fun l hl => (hc.mem_iff l).mp hl)
    (by rw [nb]; simp)
  have g' := sg.geo ng
  have nex : ∀ l, n.exists l = false := by
    intro l
    by_contra h
    have : l ∈ n.layers := (nc.mem_iff l).mpr (show n.exists l = true by simpa using h)
    rw [nls] at this
    cases this
  have hu : ∀ p, n'.cellU p = m.cellU p := fun p => by
    unfold cellU; rw [sg.position, sg.length, sg.resolution, np, nl, nr]
  have hins : ∀ p, n'.isInside p = m.isInside p := fun p => by
    have := isInside_iff g' p
    rw [hu, sg.size, nz, ← isInside_iff hg p] at this
    exact Bool.eq_iff_iff.mpr this
  refine ⟨n', by unfold rebase Call.discard Act.bind; rw [e]; simp only; rw [e']; rfl, g', sc, sg.startIndex.trans ns, sg.size.trans nz,
    sg.length.trans nl, sg.resolution.trans nr, sg.position.trans np, fun l => ?_, hins, fun l p hl => ?_⟩
  · refine Bool.eq_iff_iff.mpr ((sx l).trans ?_)
    rw [nex]
    simp only [Bool.false_eq_true, false_or]
    exact hc.mem_iff l
  · by_cases hp : m.isInside p = true
    · have hp' : n'.isInside p = true := by rw [hins, hp]
      rw [atPosition_inside hp, atPosition_inside hp']
      have hi := getIndex_in g' hp'
      generalize hI : (n'.getIndex p).1 = i at hi
      have hin : i.In n.size := by rw [← sg.size]; exact hi
      have hpos := getPosition_eq hin
      have hcu : n.cellU (n.center (unwrapIdx i n.size n.startIndex)) = unwrapIdx i n.size n.startIndex := cellU_center ng _
      have hui : unwrapIdx i n.size n.startIndex = m.cellU p := by
        rw [← hI, getIndex_eq g' hp', sg.size, sg.startIndex, unwrap_buffer _ ng.start, hu]
        have := (isInside_iff g' p).mp hp'
        rwa [sg.size] at this
      have hmc : m.cellU (n.center (unwrapIdx i n.size n.startIndex)) = m.cellU p := by
        rw [← hu]
        rw [hui] at hcu ⊢
        rw [show n'.cellU (n.center (m.cellU p)) = n.cellU (n.center (m.cellU p)) from by
          unfold cellU; rw [sg.position, sg.length, sg.resolution], hcu]
      generalize n.center (unwrapIdx i n.size n.startIndex) = c at hpos hmc
      have hcin : m.isInside c = true := (isInside_iff hg c).mpr (by rw [hmc]; exact (isInside_iff hg p).mp hp)
      have hsame : m.atPosition l c = m.at l (m.getIndex p).1 := by
        rw [atPosition_inside hcin, getIndex_eq hg hcin, hmc, ← getIndex_eq hg hp]
      obtain ⟨v, hv⟩ := hc.at_ok hl (getIndex_in hg hp)
      have hmem := (hc.mem_iff l).mpr hl
      by_cases hno : v = NO_INFORMATION
      · rw [((sat l i c hpos).2 (by
          rintro ⟨-, -, v', h1, h2⟩
          rw [hsame, hv] at h1
          injection h1 with h1
          exact h2 (h1 ▸ hno))).2 (nex l) hmem, hv, hno]
      · rw [(sat l i c hpos).1 v hmem (.inl rfl) (hsame.trans hv) hno, hv]
    · have hp : m.isInside p = false := by simpa using hp
      rw [atPosition_outside hp, atPosition_outside (by rw [hins, hp])]

variable {pop : Pop K} {hyp : Nat → Nat → K} {computer : K → Cost} {radius : K} {m : CostMap K} {o : Inflater K}

/-- C115. A check of a straight way on the inflated copy holds for the map itself, moved or not: if it says "clear", then every point of the
way is inside the map and its cell has no lethal cost. -/
theorem C115_clear (norm : Vec K → K) (hg : m.Geo) (hc : m.Coherent) {ls : String} (hls : m.exists ls = true) (ld : String)
    (hn : radiusInCells radius m.resolution < 2 ^ 32 - 1) (hpop : PopOk pop) (hh : HypOk hyp (radiusInCells radius m.resolution))
    (ho : Used hyp computer m.resolution o) (log : List Idx) {thr : Cost}
    (hthr : ∀ d, d ≤ m.resolution * (radiusInCells radius m.resolution : K) → thr ≤ computer d)
    (h2 : 2 ≤ radiusInCells radius m.resolution) :
    ∃ n st', rebase m = (.ok (), n) ∧ inflate pop hyp ls ld radius computer ⟨o, n, log⟩ = (.ok (), st') ∧
      ∀ a b, m.isInside a = true → m.isInside b = true → ∃ r, wayClear norm st'.map ld thr a b = .ok r ∧
        (r = true → ∀ p, OnWay a b p → ∃ c, m.atPosition ls p = .ok c ∧ c ≠ LETHAL_OBSTACLE) := by
  obtain ⟨n, e, ng, nc, ns, -, -, nr, -, nx, ni, nat⟩ := C115_same hg hc
  obtain ⟨st', h1, h⟩ := C113_clear (o := o) (pop := pop) norm ng nc ns (ls := ls) (by rw [nx, hls]) ld (by rw [nr]; exact hn) hpop (by rw [nr]; exact hh)
    (by rw [nr]; exact ho) log (by rw [nr]; exact hthr) (by rw [nr]; exact h2)
  refine ⟨n, st', e, h1, fun a b ha hb => ?_⟩
  obtain ⟨r, hr, h⟩ := h a b (by rw [ni, ha]) (by rw [ni, hb])
  refine ⟨r, hr, fun hrt p hp => ?_⟩
  obtain ⟨c, h3, h4⟩ := h hrt p hp
  exact ⟨c, by rw [← nat ls p hls, h3], h4⟩

/-- Cells that are some rows and columns apart have centres as many cells apart, on a map that was not moved. -/
theorem cells_apart {n : CostMap K} (ng : n.Geo) (ns : n.startIndex = ⟨0, 0⟩) {i j : Idx} {p q : Vec K} (hp : n.getPosition i = some p)
    (hq : n.getPosition j = some q) : CellsApart n.resolution p q (i.x - j.x).natAbs (i.y - j.y).natAbs := by
  have hi : i.In n.size := by by_contra h; rw [getPosition_none h] at hp; cases hp
  have hj : j.In n.size := by by_contra h; rw [getPosition_none h] at hq; cases hq
  have unwrapped : ∀ {i : Idx}, i.In n.size → unwrapIdx i n.size n.startIndex = i := by
    intro i hi
    rw [unwrapIdx_eq hi ng.start, ns]
    obtain ⟨i1, i2, i3, i4⟩ := hi
    ext <;> simp only [unw] <;> split <;> omega
  rw [getPosition_eq hi, unwrapped hi] at hp
  rw [getPosition_eq hj, unwrapped hj] at hq
  obtain rfl := Option.some.inj hp
  obtain rfl := Option.some.inj hq
  have key : ∀ (c : K) (u v : Int), |c - n.resolution * (u : K) - (c - n.resolution * (v : K))| = ((u - v).natAbs : K) * n.resolution := by
    intro c u v
    rw [show c - n.resolution * (u : K) - (c - n.resolution * (v : K)) = -(((u - v : Int) : K) * n.resolution) from by push_cast; ring,
      abs_neg, abs_mul, abs_of_pos ng.res_pos, Nat.cast_natAbs, Int.cast_abs]
  exact ⟨key _ _ _, key _ _ _⟩

/-- The cell of one map at the centre of a cell of another one with the same geometry up to the start index. -/
theorem same_centre {A B : CostMap K} (hA : A.Geo) (hB : B.Geo) (hz : B.size = A.size) (hl : B.length = A.length)
    (hr : B.resolution = A.resolution) (hp : B.position = A.position) {i : Idx} {p : Vec K} (h : A.getPosition i = some p) :
    i.In A.size ∧ ∃ j, j.In B.size ∧ B.getPosition j = some p ∧ ∀ l, A.atPosition l p = A.at l i ∧ B.atPosition l p = B.at l j := by
  have hi : i.In A.size := by by_contra hi; rw [getPosition_none hi] at h; cases h
  have hu := unwrapIdx_in hi hA.start
  have hj : (bufferIdx (unwrapIdx i A.size A.startIndex) B.size B.startIndex).In B.size := bufferIdx_in (by rw [hz]; exact hu) hB.start
  obtain ⟨p1, a1, a2, a3⟩ := C10_index_position_index hA hi
  obtain ⟨p2, b1, b2, b3⟩ := C10_index_position_index hB hj
  obtain rfl : p1 = p := by rw [a1] at h; exact Option.some.inj h
  have e : p2 = p1 := by
    rw [getPosition_eq hj, unwrap_buffer (by rw [hz]; exact hu) hB.start] at b1
    rw [getPosition_eq hi] at a1
    rw [← Option.some.inj b1, ← Option.some.inj a1]
    unfold center
    rw [hl, hr, hp]
  subst e
  refine ⟨hi, _, hj, b1, fun l => ⟨?_, ?_⟩⟩
  · rw [atPosition_inside a2, a3]
  · rw [atPosition_inside b2, b3]

/-- C115. Inflating the copy, in terms of the world. Take the centre `p` of any cell of the map, moved or not, and its cost in the source layer.
The inflated layer has at `p` either that cost or the cost combined with the one that the computer gives for an obstacle within the radius of `p`.
It has one of the latter, for an obstacle not further away than the steps to it, if an obstacle is within the radius in steps along the axes. -/
theorem C115_world (hg : m.Geo) (hc : m.Coherent) {ls : String} (hls : m.exists ls = true) (ld : String)
    (hn : radiusInCells radius m.resolution < 2 ^ 32 - 1) (hpop : PopOk pop) (hh : HypOk hyp (radiusInCells radius m.resolution))
    (ho : Used hyp computer m.resolution o) (log : List Idx) :
    ∃ n st', rebase m = (.ok (), n) ∧ inflate pop hyp ls ld radius computer ⟨o, n, log⟩ = (.ok (), st') ∧
      ∀ i p v, m.getPosition i = some p → m.at ls i = .ok v →
        (st'.map.atPosition ld p = .ok v ∨
          ∃ q a b, m.ObstacleAt ls q ∧ CellsApart m.resolution p q a b ∧
            a * a + b * b ≤ radiusInCells radius m.resolution * radiusInCells radius m.resolution ∧
            st'.map.atPosition ld p = .ok (combined v (computer (m.resolution * hyp a b)))) ∧
        ∀ q a b, m.ObstacleAt ls q → CellsApart m.resolution p q a b → a + b ≤ radiusInCells radius m.resolution →
          ∃ q' a' b', m.ObstacleAt ls q' ∧ CellsApart m.resolution p q' a' b' ∧ a' * a' + b' * b' ≤ (a + b) * (a + b) ∧
            st'.map.atPosition ld p = .ok (combined v (computer (m.resolution * hyp a' b'))) := by
  obtain ⟨n, e, ng, nc, ns, nz, nl, nr, np, nx, ni, nat⟩ := C115_same hg hc
  have hls' : n.exists ls = true := by rw [nx, hls]
  rw [← nr] at hn hh ho ⊢
  obtain ⟨st', h1, hgeo, -, -, -, hat⟩ := C38_only_near_obstacles nc ng.res_pos hls' ld hn hpop hh ho log
  obtain ⟨st'', h1', hman⟩ := C41_manhattan_range nc ng.res_pos hls' ld hn hpop hh ho log
  obtain rfl : st' = st'' := by rw [h1] at h1'; exact (Prod.mk.inj h1').2
  refine ⟨n, st', e, h1, fun i p v hp hv => ?_⟩
  obtain ⟨hi, j, hj, hjp, hread⟩ := same_centre hg ng nz nl nr np hp
  have hjv : n.at ls j = .ok v := by rw [← (hread ls).2, nat ls p hls, (hread ls).1, hv]
  obtain ⟨-, j', hj', hjp', hread'⟩ := same_centre ng (hgeo.geo ng) hgeo.size hgeo.length hgeo.resolution hgeo.position hjp
  have hjj : j' = j := by
    have e1 := (C10_index_position_index (hgeo.geo ng) hj')
    have e2 := (C10_index_position_index ng hj)
    obtain ⟨u1, u2, -, u4⟩ := e1
    obtain ⟨w1, w2, -, w4⟩ := e2
    rw [hjp'] at u2
    rw [hjp] at w2
    obtain rfl := Option.some.inj u2
    obtain rfl := Option.some.inj w2
    rw [getIndex_congr hgeo, w4] at u4
    exact (Prod.mk.inj u4).1.symm
  subst hjj
  have hout : ∀ l, st'.map.atPosition l p = st'.map.at l j' := fun l => (hread' l).2
  have down : ∀ {q : Idx}, n.Lethal ls q → ∃ Q, n.getPosition q = some Q ∧ m.ObstacleAt ls Q := by
    rintro q ⟨q1, q2⟩
    obtain ⟨Q, w1, -, -⟩ := C10_index_position_index ng q1
    obtain ⟨-, k, -, k2, k3⟩ := same_centre ng hg nz.symm nl.symm nr.symm np.symm w1
    exact ⟨Q, w1, k, k2, by rw [← (k3 ls).2, ← nat ls Q hls, (k3 ls).1, q2]⟩
  refine ⟨?_, ?_⟩
  · rcases hat j' v hj hjv with h | ⟨q, hq, hd, h⟩
    · exact .inl (by rw [hout, h])
    · obtain ⟨Q, w1, w2⟩ := down hq
      exact .inr ⟨Q, _, _, w2, cells_apart ng ns hjp w1, hd, by rw [hout, h]; rfl⟩
  · rintro Q a b ⟨k, k1, k2⟩ ⟨dx, dy⟩ hab
    obtain ⟨-, q, q1, q2, q3⟩ := same_centre hg ng nz nl nr np k1
    have hL : n.Lethal ls q := ⟨q1, by rw [← (q3 ls).2, nat ls Q hls, (q3 ls).1, k2]⟩
    obtain ⟨cx, cy⟩ := cells_apart ng ns hjp q2
    have whole : ∀ {u w : Nat}, (u : K) * n.resolution = w * n.resolution → u = w := by
      intro u w h
      exact_mod_cast mul_right_cancel₀ ng.res_pos.ne' h
    have ea : (j'.x - q.x).natAbs = a := whole (cx.symm.trans dx)
    have eb : (j'.y - q.y).natAbs = b := whole (cy.symm.trans dy)
    have hm : manhattan j' q = a + b := by unfold manhattan; rw [ea, eb]
    obtain ⟨-, q', hq', hd, -, h⟩ := hman j' v q hj hjv hL (by rw [hm]; exact hab)
    obtain ⟨Q', w1, w2⟩ := down hq'
    rw [hm] at hd
    exact ⟨Q', _, _, w2, cells_apart ng ns hjp w1, hd, by rw [hout, h]; rfl⟩

end

/-- C115 is false without the copy: on this map, which was moved, inflated by one cell with whatever queue, distances and computer, the cell next
to the obstacle keeps its cost. -/
theorem C115_false :
    ∃ (m : CostMap ℚ) (p q : Vec ℚ), m.Geo ∧ m.Coherent ∧ m.ObstacleAt "s" q ∧ CellsApart m.resolution p q 1 0 ∧
      m.atPosition "s" p = .ok FREE_SPACE ∧ radiusInCells 1 m.resolution = 1 ∧
      ∀ (pop : Pop ℚ) (hyp : Nat → Nat → ℚ) (computer : ℚ → Cost), PopOk pop → HypOk hyp 1 →
        ∃ st', inflate pop hyp "s" "t" 1 computer ⟨Inflater.new, m, []⟩ = (.ok (), st') ∧ st'.map.atPosition "t" p = .ok FREE_SPACE := by
  have hrad : radiusInCells 1 Demo.corridor.resolution = 1 := by decide +kernel
  refine ⟨Demo.corridor, ⟨-2, 0⟩, ⟨-1, 0⟩, Demo.corridor_geo, Demo.corridor_coherent, ⟨⟨8, 0⟩, by decide +kernel, by decide +kernel⟩,
    ⟨by decide +kernel, by decide +kernel⟩, by decide +kernel, hrad, ?_⟩
  intro pop hyp computer hpop hh
  obtain ⟨st', h1, hgeo, -, -, -, hat⟩ := C38_only_near_obstacles (radius := (1 : ℚ)) (computer := computer) Demo.corridor_coherent
    Demo.corridor_geo.res_pos (ls := "s") (by decide +kernel) "t" (by rw [hrad]; decide) hpop (by rw [hrad]; exact hh) .new []
  refine ⟨st', h1, ?_⟩
  have hins : st'.map.isInside ⟨-2, 0⟩ = true := by
    rw [← getIndex_snd, getIndex_congr hgeo]; decide +kernel
  rw [atPosition_inside hins, getIndex_congr hgeo, show (Demo.corridor.getIndex ⟨-2, 0⟩).1 = ⟨0, 0⟩ from by decide +kernel]
  rcases hat ⟨0, 0⟩ FREE_SPACE (by decide +kernel) (by decide +kernel) with h | ⟨q, hq, hd, -⟩
  · exact h
  · rw [hrad, Demo.corridor_lethal hq] at hd
    exact absurd hd (by decide)

namespace Demo

/-- The row of cells with the obstacle in its first cell. -/
def corridor' : CostMap ℚ := (grid 9 1 fun i _ => if i = 3 then 254 else 0).setStartIndex ⟨3, 0⟩

theorem corridor'_coherent : corridor'.Coherent :=
  have h := grid_coherent 9 1 (fun i _ => if i = 3 then 254 else 0)
  ⟨h.nodup, h.mem_iff, h.dims⟩

theorem corridor'_geo : corridor'.Geo :=
  ⟨by decide +kernel, by decide +kernel, by decide +kernel, by decide +kernel, by decide +kernel, by decide +kernel⟩

end Demo

/-- C115 is false without the copy: the cell at the other end of the map, eight cells from the obstacle, is inflated by an inflation of one cell. -/
theorem C115_false_far :
    ∃ (m : CostMap ℚ) (p q : Vec ℚ), m.Geo ∧ m.Coherent ∧ m.ObstacleAt "s" q ∧ (∀ q', m.ObstacleAt "s" q' → q' = q) ∧
      CellsApart m.resolution p q 8 0 ∧ m.atPosition "s" p = .ok FREE_SPACE ∧ radiusInCells 1 m.resolution = 1 ∧
      ∀ (pop : Pop ℚ) (hyp : Nat → Nat → ℚ), PopOk pop → HypOk hyp 1 →
        ∃ st', inflate pop hyp "s" "t" 1 (fun _ => 253) ⟨Inflater.new, m, []⟩ = (.ok (), st') ∧ st'.map.atPosition "t" p = .ok 253 := by
  have hrad : radiusInCells 1 Demo.corridor'.resolution = 1 := by decide +kernel
  have hleth : ∀ {i : Idx}, i.In Demo.corridor'.size → Demo.corridor'.at "s" i = .ok LETHAL_OBSTACLE → i = ⟨3, 0⟩ := by
    have key : ∀ i ∈ colMajor 9 1, Demo.corridor'.at "s" i = .ok LETHAL_OBSTACLE → i = ⟨3, 0⟩ := by decide +kernel
    intro i hi h
    refine key i (mem_colMajor.mpr ?_) h
    rw [show Demo.corridor'.size = ⟨9, 1⟩ from by decide +kernel] at hi
    unfold Idx.In at hi
    simp only at hi
    omega
  refine ⟨Demo.corridor', ⟨-4, 0⟩, ⟨4, 0⟩, Demo.corridor'_geo, Demo.corridor'_coherent, ⟨⟨3, 0⟩, by decide +kernel, by decide +kernel⟩, ?_,
    ⟨by decide +kernel, by decide +kernel⟩, by decide +kernel, hrad, ?_⟩
  · rintro q' ⟨i, h1, h2⟩
    have hi : i.In Demo.corridor'.size := by by_contra h; rw [getPosition_none h] at h1; cases h1
    rw [hleth hi h2, show Demo.corridor'.getPosition ⟨3, 0⟩ = some ⟨4, 0⟩ from by decide +kernel] at h1
    exact (Option.some.inj h1).symm
  intro pop hyp hpop hh
  obtain ⟨st', h1, hgeo, -⟩ := C38_only_near_obstacles (radius := (1 : ℚ)) (computer := fun _ => (253 : Cost)) Demo.corridor'_coherent
    Demo.corridor'_geo.res_pos (ls := "s") (by decide +kernel) "t" (by rw [hrad]; decide) hpop (by rw [hrad]; exact hh) .new []
  obtain ⟨st'', h1', hman⟩ := C41_manhattan_range (radius := (1 : ℚ)) (computer := fun _ => (253 : Cost)) Demo.corridor'_coherent
    Demo.corridor'_geo.res_pos (ls := "s") (by decide +kernel) "t" (by rw [hrad]; decide) hpop (by rw [hrad]; exact hh) .new []
  obtain rfl : st' = st'' := by rw [h1] at h1'; exact (Prod.mk.inj h1').2
  refine ⟨st', h1, ?_⟩
  have hins : st'.map.isInside ⟨-4, 0⟩ = true := by
    rw [← getIndex_snd, getIndex_congr hgeo]; decide +kernel
  rw [atPosition_inside hins, getIndex_congr hgeo, show (Demo.corridor'.getIndex ⟨-4, 0⟩).1 = ⟨2, 0⟩ from by decide +kernel]
  obtain ⟨-, q, hq, -, -, h⟩ := hman ⟨2, 0⟩ FREE_SPACE ⟨3, 0⟩ (by decide +kernel) (by decide +kernel) ⟨by decide +kernel, by decide +kernel⟩
    (by rw [hrad]; decide)
  rw [h]
  rfl

open Demo in
/-- The same map, copied first: the cell next to the obstacle is inflated, and the way through the obstacle is found to be blocked. -/
example : ∃ n st', rebase corridor = (.ok (), n) ∧ inflate pop hyp "s" "t" 2 (fun _ => 253) ⟨Inflater.new, n, []⟩ = (.ok (), st') ∧
    st'.map.atPosition "t" ⟨-2, 0⟩ = .ok 253 ∧ wayClear (fun _ => 1) st'.map "t" 253 ⟨2, 0⟩ ⟨-4, 0⟩ = .ok false := by
  have hrad : radiusInCells 2 corridor.resolution = 2 := by decide +kernel
  obtain ⟨n, st', e, h1, h⟩ := C115_world (radius := 2) (computer := fun _ => (253 : Cost)) corridor_geo corridor_coherent (ls := "s")
    (by decide +kernel) "t" (by rw [hrad]; decide) pop_ok (hyp_ok _) .new []
  obtain ⟨n', st'', e', h1', h'⟩ := C115_clear (radius := 2) (computer := fun _ => (253 : Cost)) (fun _ => 1) corridor_geo corridor_coherent
    (ls := "s") (by decide +kernel) "t" (by rw [hrad]; decide) pop_ok (hyp_ok _) .new [] (thr := 253) (fun _ _ => UInt8.le_refl _)
    (by rw [hrad])
  obtain rfl : n = n' := by rw [e] at e'; exact (Prod.mk.inj e').2
  obtain rfl : st' = st'' := by rw [h1] at h1'; exact (Prod.mk.inj h1').2
  refine ⟨n, st', e, h1, ?_, ?_⟩
  · obtain ⟨-, h⟩ := h ⟨0, 0⟩ ⟨-2, 0⟩ FREE_SPACE (by decide +kernel) (by decide +kernel)
    obtain ⟨q', a', b', -, -, -, h⟩ := h ⟨-1, 0⟩ 1 0 ⟨⟨8, 0⟩, by decide +kernel, by decide +kernel⟩ ⟨by decide +kernel, by decide +kernel⟩
      (by rw [hrad]; decide)
    rw [h]; rfl
  · obtain ⟨r, hr, h'⟩ := h' ⟨2, 0⟩ ⟨-4, 0⟩ (by decide +kernel) (by decide +kernel)
    cases r
    · exact hr
    · obtain ⟨c, c1, c2⟩ := h' rfl ⟨-1, 0⟩ ⟨1 / 2, by norm_num, by norm_num, by ext <;> norm_num⟩
      rw [show corridor.atPosition "s" ⟨-1, 0⟩ = .ok LETHAL_OBSTACLE from by decide +kernel] at c1
      injection c1 with c1
      exact absurd c1.symm c2

end CostMapModel

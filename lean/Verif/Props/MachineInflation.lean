import Verif.Lemmas.MachineInflation
import Verif.Spec.MachineInflation
import Verif.Lemmas.MachineSpiral
import Verif.Props.Ieee
import Verif.Props.InflationFloat

/-!
# Inflation with the machine's integers, for every radius: C94
-/

set_option linter.unusedSectionVars false

namespace CostMapModel
open CostMap Inflation
variable {K : Type} [Field K] [LinearOrder K] [IsStrictOrderedRing K] [FloorRing K]

/-- The number of cells of a radius that is a number, when the quotient does not overflow. -/
theorem cellsOfD_fin {F : Fmt K} {radius res : K} (hres : res ≠ 0) (h1 : F.rd (radius / res) < F.top)
    (h2 : -F.top < F.rd (radius / res)) : cellsOfD F (.fin radius) (.fin res) = cellsOfRd F.rd radius res := by
  have e : Dbl.div F (.fin radius) (.fin res) = .fin (F.rd (radius / res)) := by
    unfold Dbl.div
    dsimp only
    rw [if_neg hres, Dbl.round, if_neg (not_le.2 h1), if_neg (not_le.2 h2)]
  have lt : ∀ x : K, Dbl.lt (.fin 0) (.fin x) = decide (0 < x) := fun _ => rfl
  unfold cellsOfD cellsOfRd
  rw [e, if_neg hres]
  dsimp only
  rw [lt]
  by_cases h : (0 : K) < ((⌈F.rd (radius / res)⌉ : Int) : K)
  · rw [if_pos (decide_eq_true h)]
    dsimp only
    rw [Int.floor_intCast]
  · rw [if_neg (by rw [decide_eq_true_iff]; exact h)]
    dsimp only
    have : ⌈F.rd (radius / res)⌉ ≤ 0 := by
      push Not at h
      exact_mod_cast h
    rw [Int.floor_zero, Int.toNat_of_nonpos this, Int.toNat_zero]

/-- With a number of cells below `2^32 - 2`, no operation on cell coordinates wraps or overflows. -/
theorem inflateU_same {F : Fmt K} (rf : K → K) {pop : Pop K} (hpop : PopOk pop) (hyp : Nat → Nat → K) (ls ld : String) {r : Dbl K}
    {radius : K} (computer : K → Cost) {m : CostMap K} (hc : m.Coherent) (hX : m.size.x < 2 ^ 31) (hY : m.size.y < 2 ^ 31) {n : Nat}
    (hr : cellsOfD F r (.fin m.resolution) = some n) (hr' : cellsOfRd F.rd radius m.resolution = some n) (hn : n < 2 ^ 32 - 2)
    {o : Inflater K} (ho : o.queue = []) (log : List Idx) :
    inflateU F rf pop hyp ls ld r computer ⟨o, m, log⟩ = inflateRd F.rd rf pop hyp ls ld radius computer ⟨o, m, log⟩ := by
  have hX' : m.size.x < 2147483648 := by omega
  have hY' : m.size.y < 2147483648 := by omega
  unfold inflateU inflateRd
  refine Act.bind_congr rfl fun _ s1 h1 => ?_
  obtain rfl : (⟨o, m, []⟩ : Inflation K) = s1 := (Prod.mk.inj h1).2
  refine Act.bind_congr rfl fun src s2 h2 => ?_
  obtain ⟨hget, rfl⟩ : m.get ls = .ok src ∧ (⟨o, m, []⟩ : Inflation K) = s2 := Prod.mk.inj h2
  have hdims : (src.rows : Int) = m.size.x ∧ (src.cols : Int) = m.size.y := by
    refine hc.dims ls src ?_
    unfold CostMap.get at hget
    split at hget
    · rename_i a ha
      rw [ha, Res.ok.inj hget]
    · cases hget
  refine Act.bind_congr rfl fun _ s3 h3 => ?_
  have g3 : SameGeometry m s3.map := by
    rw [← (Prod.mk.inj h3).2]; exact CostMap.add_geometry ld src m
  have q3 : s3.obj.queue = [] := by rw [← (Prod.mk.inj h3).2]; exact ho
  have u1 : u32 s3.map.size.x = m.size.x := by rw [g3.size]; exact u32_eq (by omega) (by omega)
  have u2 : u32 s3.map.size.y = m.size.y := by rw [g3.size]; exact u32_eq (by omega) (by omega)
  have ep : prepareU F rf hyp r computer s3 = prepareRd F.rd rf hyp radius computer s3 := by
    unfold prepareU prepareRd
    dsimp only
    rw [g3.resolution, hr, hr', u1, u2, g3.size]
    dsimp only
    split
    · have e1 : (u32 ((n : Int) + 2)).toNat = n + 2 := by
        rw [u32_eq (by omega) (by omega)]; omega
      have e2 : (u32 ((n : Int) + 1)).toNat = n + 1 := by
        rw [u32_eq (by omega) (by omega)]; omega
      unfold computeCachesU
      dsimp only
      rw [e1, e2, if_pos (by omega)]
      rfl
    · rfl
  refine Act.bind_congr ep fun _ s4 h4 => ?_
  have k4 : Queue32 m.size s4 := by
    rw [ep] at h4
    have : s4.map = s3.map ∧ s4.obj.queue = s3.obj.queue := by
      unfold prepareRd at h4
      dsimp only at h4
      split at h4
      · cases h4
      · split at h4 <;> cases h4 <;> exact ⟨rfl, rfl⟩
    refine ⟨by rw [this.1, g3.size], fun c hc => ?_, fun c hc => ?_⟩ <;> rw [this.2, q3] at hc <;> simp at hc
  have er : (u32 src.rows).toNat = src.rows := by rw [u32_eq (by omega) (by omega)]; omega
  have ec : (u32 src.cols).toNat = src.cols := by rw [u32_eq (by omega) (by omega)]; omega
  rw [er, ec]
  have hin : ∀ c ∈ colMajor src.rows src.cols, c.In m.size := by
    intro c hc'
    obtain ⟨c1, c2, c3, c4⟩ := mem_colMajor.mp hc'
    exact ⟨c1, by omega, c3, by omega⟩
  have hseed : ∀ c ∈ colMajor src.rows src.cols, Act.Keeps (Queue32 (K := K) m.size) (seed ls ld c) := by
    intro c hc'
    refine (Act.Keeps.read _).bind fun cost => Act.Keeps.ite (enqueue_queue32 ls ld (hin c hc') (hin c hc')) (Act.Keeps.pure ())
  have es : Act.forEach (seedU ls ld) (colMajor src.rows src.cols) s4 = Act.forEach (seed ls ld) (colMajor src.rows src.cols) s4 :=
    forEach_congr_mem hseed (fun c hc' s _ => by rw [seedU_eq ls ld (In.cell32 (hin c hc') hX' hY')]) k4
  refine Act.bind_congr es fun _ s5 h5 => ?_
  have k5 : Queue32 m.size s5 := by
    have := forEach_keeps_mem hseed s4 k4
    rw [← es, h5] at this
    exact this
  refine Act.bind_congr rfl fun s6 s7 h6 => ?_
  obtain ⟨rfl, rfl⟩ : s5 = s6 ∧ s5 = s7 := ⟨Res.ok.inj (Prod.mk.inj h6).1, (Prod.mk.inj h6).2⟩
  exact spreadU_eq hpop ls ld hX' hY' _ k5

/-- C94 (partial: radii below `2^32 - 2` cells; false of larger ones, see `C94_false_infinite` and `C94_false_huge`). On every map
whose size is an `int`, no operation on cell coordinates wraps or overflows: the call does what it does with unbounded integers, so
that what C91 says holds of it. -/
theorem C94_same_partial {F : Fmt K} (rf : K → K) {pop : Pop K} (hpop : PopOk pop) (hyp : Nat → Nat → K) (ls ld : String) {radius : K}
    (computer : K → Cost) {m : CostMap K} (hc : m.Coherent) (hres : 0 < m.resolution) (hX : m.size.x < 2 ^ 31)
    (hY : m.size.y < 2 ^ 31) (htop : |F.rd (radius / m.resolution)| < F.top)
    (hn : ⌈F.rd (radius / m.resolution)⌉.toNat < 2 ^ 32 - 2) {o : Inflater K} (ho : o.queue = []) (log : List Idx) :
    inflateU F rf pop hyp ls ld (.fin radius) computer ⟨o, m, log⟩ =
      inflateRd F.rd rf pop hyp ls ld radius computer ⟨o, m, log⟩ := by
  obtain ⟨t1, t2⟩ := abs_lt.mp htop
  have e : cellsOfRd F.rd radius m.resolution = some ⌈F.rd (radius / m.resolution)⌉.toNat := by
    unfold cellsOfRd
    rw [if_neg hres.ne', if_pos (by omega)]
  exact inflateU_same rf hpop hyp ls ld computer hc hX hY ((cellsOfD_fin hres.ne' t2 t1).trans e) e hn ho log

/-! ## Radii that are no numbers, and radii that are too large -/

/-- `std::max(0.0, NaN)` is `0.0`. -/
theorem cellsOfD_nan (F : Fmt K) (r : Dbl K) : cellsOfD F .nan r = some 0 := by
  have e : Dbl.div F .nan r = .nan := by cases r <;> rfl
  have l : Dbl.lt (.fin (0 : K)) .nan = false := rfl
  unfold cellsOfD
  rw [e]
  dsimp only
  rw [l]
  simp

theorem cellsOfD_ninf (F : Fmt K) {res : K} (h : 0 < res) : cellsOfD F .ninf (.fin res) = some 0 := by
  have e : Dbl.div F .ninf (.fin res) = .ninf := by
    unfold Dbl.div
    dsimp only
    rw [if_pos h.le]
  have l : Dbl.lt (.fin (0 : K)) .ninf = false := rfl
  unfold cellsOfD
  rw [e]
  dsimp only
  rw [l]
  simp

theorem cellsOfD_pinf (F : Fmt K) {res : K} (h : 0 < res) : cellsOfD F .pinf (.fin res) = none := by
  have e : Dbl.div F .pinf (.fin res) = .pinf := by
    unfold Dbl.div
    dsimp only
    rw [if_pos h.le]
  have l : Dbl.lt (.fin (0 : K)) .pinf = true := rfl
  unfold cellsOfD
  rw [e]
  dsimp only
  rw [l]
  simp

/-- The radius enters through its number of cells only. -/
theorem inflateU_cells {F : Fmt K} (rf : K → K) (pop : Pop K) (hyp : Nat → Nat → K) (ls ld : String) {r r' : Dbl K}
    (computer : K → Cost) {m : CostMap K} (h : cellsOfD F r (.fin m.resolution) = cellsOfD F r' (.fin m.resolution)) (o : Inflater K)
    (log : List Idx) :
    inflateU F rf pop hyp ls ld r computer ⟨o, m, log⟩ = inflateU F rf pop hyp ls ld r' computer ⟨o, m, log⟩ := by
  unfold inflateU
  refine Act.bind_congr rfl fun _ s1 h1 => ?_
  obtain rfl : (⟨o, m, []⟩ : Inflation K) = s1 := (Prod.mk.inj h1).2
  refine Act.bind_congr rfl fun src s2 h2 => ?_
  obtain ⟨hget, rfl⟩ : m.get ls = .ok src ∧ (⟨o, m, []⟩ : Inflation K) = s2 := Prod.mk.inj h2
  refine Act.bind_congr rfl fun _ s3 h3 => ?_
  have g3 : SameGeometry m s3.map := by
    rw [← (Prod.mk.inj h3).2]; exact CostMap.add_geometry ld src m
  refine Act.bind_congr ?_ fun _ s4 h4 => rfl
  unfold prepareU
  dsimp only
  rw [g3.resolution, h]

/-- C94. A radius that is NaN or minus infinity counts as zero. -/
theorem C94_no_number (F : Fmt K) (h0 : F.rd 0 = 0) (ht : 0 < F.top) (rf : K → K) (pop : Pop K) (hyp : Nat → Nat → K) (ls ld : String)
    (computer : K → Cost) {m : CostMap K} (hres : 0 < m.resolution) (o : Inflater K) (log : List Idx) {r : Dbl K}
    (hr : r = .nan ∨ r = .ninf) :
    inflateU F rf pop hyp ls ld r computer ⟨o, m, log⟩ = inflateU F rf pop hyp ls ld (.fin 0) computer ⟨o, m, log⟩ := by
  apply inflateU_cells
  have e : cellsOfD F (.fin 0) (.fin m.resolution) = some 0 := by
    rw [cellsOfD_fin hres.ne' (by rw [zero_div, h0]; exact ht) (by rw [zero_div, h0]; linarith)]
    unfold cellsOfRd
    rw [if_neg hres.ne', zero_div, h0]
    simp
  rw [e]
  rcases hr with rfl | rfl
  · exact cellsOfD_nan F _
  · exact cellsOfD_ninf F hres

/-- When the number of cells is not an `unsigned int`, or is `2^32 - 2` and the caches are rebuilt, the call is undefined behaviour. -/
theorem inflateU_ub {F : Fmt K} (rf : K → K) (pop : Pop K) (hyp : Nat → Nat → K) {ls : String} (ld : String) {r : Dbl K}
    (computer : K → Cost) {m : CostMap K} (hc : m.Coherent) (hls : m.exists ls = true) {o : Inflater K}
    (h : cellsOfD F r (.fin m.resolution) = none ∨
      cellsOfD F r (.fin m.resolution) = some (2 ^ 32 - 2) ∧ o.cellRadius ≠ 2 ^ 32 - 2) (log : List Idx) :
    (inflateU F rf pop hyp ls ld r computer ⟨o, m, log⟩).1 = .ub := by
  obtain ⟨src, hsrc⟩ : ∃ a, m.get ls = .ok a := by
    obtain ⟨a, ha⟩ := CostMap.exists_iff.mp hls
    exact ⟨a, by unfold CostMap.get; rw [ha]⟩
  have g3 : SameGeometry m (CostMap.add ld src m).2 := CostMap.add_geometry ld src m
  have hprep : ∀ s3 : Inflation K, s3.map.resolution = m.resolution → s3.obj = o →
      (prepareU F rf hyp r computer s3).1 = .ub := by
    intro s3 e1 e2
    unfold prepareU
    dsimp only
    rw [e1, e2]
    rcases h with h | ⟨h, hn⟩
    · rw [h]
    · rw [h]
      dsimp only
      rw [if_pos (Ne.symm hn)]
      have : ∀ o' : Inflater K, o'.cellRadius = 2 ^ 32 - 2 → computeCachesU rf hyp computer m.resolution o' = none := by
        intro o' ho'
        unfold computeCachesU
        dsimp only
        rw [ho', if_neg (by decide)]
      rw [this _ rfl]
  have e1 : (src.rows : Int) = m.size.x ∧ (src.cols : Int) = m.size.y := by
    refine hc.dims ls src ?_
    unfold CostMap.get at hsrc
    split at hsrc
    · rename_i a ha
      rw [ha, Res.ok.inj hsrc]
    · cases hsrc
  have hadd : (CostMap.add ld src m).1 = .ok () := by
    unfold CostMap.add
    rw [if_neg (by rw [e1.1]; simp), if_neg (by rw [e1.2]; simp)]
    split <;> rfl
  have h4 := hprep ⟨o, (CostMap.add ld src m).2, []⟩ g3.resolution rfl
  unfold inflateU Act.bind Act.modify Act.read onMap
  dsimp only
  rw [hsrc]
  dsimp only
  rw [hadd]
  dsimp only
  rcases e : prepareU F rf hyp r computer ⟨o, (CostMap.add ld src m).2, []⟩ with ⟨r', s'⟩
  rw [e] at h4
  dsimp only at h4
  subst h4
  rfl

/-- C94 fails of an infinite radius, on every map: nothing is inflated everywhere, the call is undefined behaviour. -/
theorem C94_false_infinite (F : Fmt K) (rf : K → K) (pop : Pop K) (hyp : Nat → Nat → K) {ls : String} (ld : String)
    (computer : K → Cost) {m : CostMap K} (hc : m.Coherent) (hres : 0 < m.resolution) (hls : m.exists ls = true) (o : Inflater K)
    (log : List Idx) : (inflateU F rf pop hyp ls ld .pinf computer ⟨o, m, log⟩).1 = .ub :=
  inflateU_ub rf pop hyp ld computer hc hls (.inl (cellsOfD_pinf F hres)) log

/-- C94 fails of a radius of `2^32` cells or more, and of one of `2^32 - 2` cells: then the caches have no entries, and are written to. -/
theorem C94_false_huge {F : Fmt K} (rf : K → K) (pop : Pop K) (hyp : Nat → Nat → K) {ls : String} (ld : String) {radius : K}
    (computer : K → Cost) {m : CostMap K} (hc : m.Coherent) (hres : 0 < m.resolution) (hls : m.exists ls = true)
    (htop : |F.rd (radius / m.resolution)| < F.top) {o : Inflater K} (log : List Idx)
    (h : 2 ^ 32 ≤ ⌈F.rd (radius / m.resolution)⌉ ∨
      ⌈F.rd (radius / m.resolution)⌉ = 2 ^ 32 - 2 ∧ o.cellRadius ≠ 2 ^ 32 - 2) :
    (inflateU F rf pop hyp ls ld (.fin radius) computer ⟨o, m, log⟩).1 = .ub := by
  obtain ⟨t1, t2⟩ := abs_lt.mp htop
  have e := cellsOfD_fin hres.ne' t2 t1
  refine inflateU_ub rf pop hyp ld computer hc hls ?_ log
  rw [e]
  unfold cellsOfRd
  rw [if_neg hres.ne']
  rcases h with h | ⟨h, hn⟩
  · exact .inl (if_neg (by omega))
  · right
    rw [h]
    exact ⟨by decide, hn⟩

/-! ## What the calls do, after any calls -/

theorem UsedU.usedRd {F : Fmt K} {rf : K → K} {hyp : Nat → Nat → K} {computer : K → Cost} {res : K} (hres : 0 < res)
    (hF : IntsExact F.rd) {o : Inflater K} (h : UsedU F rf hyp computer res o) :
    UsedRd F.rd rf hyp computer res o := by
  induction h with
  | new => exact .new
  | @call o h pop hpop ls ld r hr m log hc hX hY hm st' hrun ih =>
    subst hm
    have hls : m.exists ls = true := by
      by_contra hls
      have : m.get ls = .thrown .outOfRange := by
        unfold CostMap.get
        rw [show m.data ls = none by
          rcases e : m.data ls with _ | a
          · rfl
          · exact absurd (CostMap.exists_iff.mpr ⟨a, e⟩) hls]
      unfold inflateU Act.bind Act.modify Act.read at hrun
      dsimp only at hrun
      rw [this] at hrun
      cases (Prod.mk.inj hrun).1
    rcases e : cellsOfD F r (.fin m.resolution) with _ | n
    · have := inflateU_ub (o := o) rf pop hyp ld computer hc hls (.inl e) log
      rw [hrun] at this
      cases this
    · have hn := hr n e
      have e' : cellsOfRd F.rd (n * m.resolution) m.resolution = some n := by
        unfold cellsOfRd
        rw [if_neg hres.ne', mul_div_cancel_right₀ _ hres.ne', (by simpa using hF n (by rw [abs_of_nonneg (by positivity)]; omega) : F.rd (n : K) = n), Int.ceil_natCast, Int.toNat_natCast,
          if_pos (by omega)]
      rw [inflateU_same rf hpop hyp ls ld computer hc hX hY e e' hn (Used.ready (ih.used hres)).1] at hrun
      exact .call ih pop ls ld _ m log rfl hrun

section
variable {F : Fmt K} {rf : K → K} {pop : Pop K} {hyp : Nat → Nat → K} {computer : K → Cost} {radius : K} {m : CostMap K} {o : Inflater K}

/-- C94. What a call does, with the machine's integers and after any such calls: C91 (see `C91_reach`). -/
theorem C94_reach_partial (hF : IntsExact F.rd) (hrd : DoublePrecision F.rd) (hc : m.Coherent)
    (hX : m.size.x < 2 ^ 31) (hY : m.size.y < 2 ^ 31) (hres : 0 < m.resolution) {ls : String} (hls : m.exists ls = true)
    (ld : String) (h0 : 0 ≤ radius) (htop : |F.rd (radius / m.resolution)| < F.top)
    (hn : ⌈F.rd (radius / m.resolution)⌉.toNat < 2 ^ 32 - 2) (hpop : PopOk pop)
    (hh : HypOk hyp ⌈F.rd (radius / m.resolution)⌉.toNat) (ho : UsedU F rf hyp computer m.resolution o) (log : List Idx) :
    ∃ st', inflateU F rf pop hyp ls ld (.fin radius) computer ⟨o, m, log⟩ = (.ok (), st') ∧
      SameGeometry m st'.map ∧ SameMeta m st'.map ∧
      st'.map.layers = (if m.exists ld then m.layers else m.layers ++ [ld]) ∧
      (∀ l, l ≠ ld → st'.map.get l = m.get l) ∧
      ∀ i v, i.In m.size → m.at ls i = .ok v →
        st'.map.at ld i = .ok v ∨
        ∃ q, m.Lethal ls q ∧ (sqDist i q : K) * m.resolution ^ 2 < (radius * (1 + 1 / 2 ^ 53) + m.resolution) ^ 2 ∧
          st'.map.at ld i = .ok (combined v (inflationCostRd rf hyp computer m.resolution i q)) := by
  have ho' := ho.usedRd hres hF
  rw [C94_same_partial rf hpop hyp ls ld computer hc hres hX hY htop hn (Used.ready (ho'.used hres)).1]
  exact C91_reach hrd hc hres hls ld h0 (by omega) hpop hh ho' log

/-- C94. Every cell in reach is inflated, with the machine's integers and after any such calls (see `C91_covers`). -/
theorem C94_covers_partial (hF : IntsExact F.rd) (hrd : DoublePrecision F.rd) (hc : m.Coherent)
    (hX : m.size.x < 2 ^ 31) (hY : m.size.y < 2 ^ 31) (hres : 0 < m.resolution) {ls : String} (hls : m.exists ls = true)
    (ld : String) (h0 : 0 ≤ radius) (htop : |F.rd (radius / m.resolution)| < F.top)
    (hn : ⌈F.rd (radius / m.resolution)⌉.toNat < 2 ^ 32 - 2) (hpop : PopOk pop)
    (hh : HypOk hyp ⌈F.rd (radius / m.resolution)⌉.toNat) (ho : UsedU F rf hyp computer m.resolution o) (log : List Idx) :
    ∃ st', inflateU F rf pop hyp ls ld (.fin radius) computer ⟨o, m, log⟩ = (.ok (), st') ∧
      ∀ i v L, i.In m.size → m.at ls i = .ok v → m.Lethal ls L →
        (manhattan i L : K) * m.resolution ≤ radius * (1 - 1 / 2 ^ 53) →
        ∃ q, m.Lethal ls q ∧ sqDist i q ≤ manhattan i L * manhattan i L ∧
          st'.map.at ld i = .ok (combined v (inflationCostRd rf hyp computer m.resolution i q)) := by
  have ho' := ho.usedRd hres hF
  rw [C94_same_partial rf hpop hyp ls ld computer hc hres hX hY htop hn (Used.ready (ho'.used hres)).1]
  exact C91_covers hrd hc hres hls ld h0 (by omega) hpop hh ho' log

/-- C94 fails of a NaN radius: the call returns, without a report, and no cell but the obstacles themselves can have changed. -/
theorem C94_false_nan (hF : IntsExact F.rd) (ht : 0 < F.top) (hrd : DoublePrecision F.rd) (hc : m.Coherent)
    (hX : m.size.x < 2 ^ 31) (hY : m.size.y < 2 ^ 31) (hres : 0 < m.resolution) {ls : String} (hls : m.exists ls = true)
    (ld : String) (hpop : PopOk pop) (hh : HypOk hyp 0) (ho : UsedU F rf hyp computer m.resolution o) (log : List Idx) :
    ∃ st', inflateU F rf pop hyp ls ld .nan computer ⟨o, m, log⟩ = (.ok (), st') ∧
      ∀ i v, i.In m.size → m.at ls i = .ok v → v ≠ LETHAL_OBSTACLE → st'.map.at ld i = .ok v := by
  have h0 : F.rd 0 = 0 := by simpa using hF 0 (by norm_num)
  have e0 : ⌈F.rd ((0 : K) / m.resolution)⌉.toNat = 0 := by rw [zero_div, h0]; simp
  rw [C94_no_number F h0 ht rf pop hyp ls ld computer hres o log (.inl rfl)]
  obtain ⟨st', h1, -, -, -, -, h2⟩ := C94_reach_partial (radius := 0) hF hrd hc hX hY hres hls ld le_rfl
    (by rw [zero_div, h0, abs_zero]; exact ht) (by rw [e0]; norm_num) hpop (by rw [e0]; exact hh) ho log
  refine ⟨st', h1, fun i v hi hv hne => ?_⟩
  rcases h2 i v hi hv with h | ⟨q, hq, hd, -⟩
  · exact h
  · exfalso
    rw [zero_mul, zero_add] at hd
    have hlt : (sqDist i q : K) < 1 := by
      have : (0 : K) < m.resolution ^ 2 := by positivity
      by_contra hcon
      push Not at hcon
      nlinarith
    have hz : sqDist i q = 0 := by
      have : sqDist i q < 1 := by exact_mod_cast hlt
      omega
    have : i = q := by
      obtain ⟨a, b⟩ := sqDist_bounds (n := 0) hz.le
      rcases i with ⟨x, y⟩
      rcases q with ⟨x', y'⟩
      simp only [Idx.mk.injEq]
      simp only at a b
      omega
    subst this
    exact hne (Res.ok.inj (hv.symm.trans hq.2))

end

/-! ## Examples -/

open Demo in
/-- The hypotheses of C94 hold of a row of nine cells of 0.1 m with an obstacle in the middle. -/
example : ∃ st', inflateU binary64 toFloat pop (fun i j => toFloat (hypot i j)) "s" "t" (.fin (toFloat (3 / 10))) (fun _ => 200)
      ⟨Inflater.new, tenthRow, []⟩ = (.ok (), st') ∧ st'.map.at "t" ⟨0, 1⟩ = .ok 200 := by
  have hn : ⌈binary64.rd (toFloat (3 / 10) / tenthRow.resolution)⌉.toNat = 4 := by decide +kernel
  obtain ⟨st', h1, h2⟩ := C94_covers_partial (F := binary64) (rf := toFloat) (radius := toFloat (3 / 10)) (computer := fun _ => 200)
    toDouble_ints toDouble_precision tenthRow_coherent (by decide +kernel) (by decide +kernel) (by decide +kernel) (ls := "s")
    (by decide +kernel) "t" (by decide +kernel) (by decide +kernel) (by rw [hn]; norm_num) pop_ok
    (by rw [hn]; exact (C91_hypot hypot_ok _).2 (by norm_num)) .new []
  obtain ⟨q, -, -, h3⟩ := h2 ⟨0, 1⟩ 0 ⟨0, 4⟩ (by decide +kernel) (by decide +kernel) ⟨by decide +kernel, by decide +kernel⟩
    (by decide +kernel)
  exact ⟨st', h1, h3⟩

open Demo in
example := C94_reach_partial (F := binary64) (rf := toFloat) (radius := toFloat (3 / 10)) (computer := fun _ => 200)
    toDouble_ints toDouble_precision tenthRow_coherent (by decide +kernel) (by decide +kernel) (by decide +kernel) (ls := "s")
    (by decide +kernel) "t" (by decide +kernel) (by decide +kernel)
    (by rw [show ⌈binary64.rd (toFloat (3 / 10) / tenthRow.resolution)⌉.toNat = 4 by decide +kernel]; norm_num) pop_ok
    (by rw [show ⌈binary64.rd (toFloat (3 / 10) / tenthRow.resolution)⌉.toNat = 4 by decide +kernel]
        exact (C91_hypot hypot_ok _).2 (by norm_num)) .new []

open Demo in
/-- With a NaN radius the cell beside the obstacle stays free. -/
example : ∃ st', inflateU binary64 toFloat pop (fun i j => toFloat (hypot i j)) "s" "t" .nan (fun _ => 200)
      ⟨Inflater.new, tenthRow, []⟩ = (.ok (), st') ∧ st'.map.at "t" ⟨0, 3⟩ = .ok 0 := by
  obtain ⟨st', h1, h2⟩ := C94_false_nan (F := binary64) (rf := toFloat) (computer := fun _ => 200) (pop := pop)
    (hyp := fun i j => toFloat (hypot i j)) toDouble_ints (by norm_num [binary64]) toDouble_precision tenthRow_coherent (by decide +kernel)
    (by decide +kernel) (by decide +kernel) (ls := "s") (by decide +kernel) "t" pop_ok ((C91_hypot hypot_ok _).2 (by norm_num)) .new []
  exact ⟨st', h1, h2 ⟨0, 3⟩ 0 (by decide +kernel) (by decide +kernel) (by decide +kernel)⟩

open Demo in
example := C94_false_infinite binary64 toFloat pop (fun i j => toFloat (hypot i j)) "t" (fun _ => 200) tenthRow_coherent
  (by decide +kernel) (ls := "s") (by decide +kernel) Inflater.new []

open Demo in
/-- A radius of `2^32 - 2` cells, and one of `2^40` m. -/
example : (inflateU binary64 toFloat pop (fun i j => toFloat (hypot i j)) "s" "t" (.fin (4294967294 * tenthRow.resolution)) (fun _ => 200)
      ⟨Inflater.new, tenthRow, []⟩).1 = .ub ∧
    (inflateU binary64 toFloat pop (fun i j => toFloat (hypot i j)) "s" "t" (.fin (2 ^ 40)) (fun _ => 200)
      ⟨Inflater.new, tenthRow, []⟩).1 = .ub :=
  ⟨C94_false_huge (F := binary64) _ _ _ _ _ tenthRow_coherent (by decide +kernel) (by decide +kernel) (by decide +kernel) _
      (.inr ⟨by decide +kernel, by decide +kernel⟩),
    C94_false_huge (F := binary64) _ _ _ _ _ tenthRow_coherent (by decide +kernel) (by decide +kernel) (by decide +kernel) _
      (.inl (by decide +kernel))⟩

end CostMapModel

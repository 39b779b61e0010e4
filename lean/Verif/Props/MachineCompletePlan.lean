import Verif.Props.MachineComplete
import Verif.Props.TopicPlan
import Verif.Props.RosPlan
import Verif.Props.SavedPlan
import Verif.Props.Mapping

/-! # C116 and C123 on the machine: where the robot fits, the answer of the programs with a copy is "clear" -/

set_option linter.unusedSectionVars false

namespace CostMapModel
open Inflation CostMap

section
variable {K : Type} [Field K] [LinearOrder K] [IsStrictOrderedRing K] [FloorRing K]
variable {w : World K} {F : Fmt K} {rf : K → K} {pop : Pop K} {hyp : Nat → Nat → K} {computer : K → Cost} {radius : K} {m : CostMap K}
  {o : Inflater K}

/-- What is clearly inside depends on the geometry alone. -/
theorem clearly_congr {rd : K → K} {c : CostMap K} (hz : c.size = m.size) (hl : c.length = m.length) (hr : c.resolution = m.resolution)
    (hp : c.position = m.position) {p : Vec K} (h : c.Clearly rd p) : m.Clearly rd p := by
  refine ⟨?_, ?_, ?_⟩
  · have := h.inside
    unfold isInsideRd at this ⊢
    rw [← hl, ← hp]; exact this
  · have := h.x
    unfold tolX at this ⊢
    rw [← hl, ← hp, ← hz, ← hr]; exact this
  · have := h.y
    unfold tolY at this ⊢
    rw [← hl, ← hp, ← hz, ← hr]; exact this

/-- C116 on the machine, the other way round, for every map, moved or not, through its copy. -/
theorem C116_complete_moved_machine (hrd : DoublePrecision F.rd) (hF : IntsExact F.rd) (htop : 2 ^ 31 ≤ F.top) (hm : HeldI w F rf m)
    (hfit : w.Geometry m.length m.resolution m.position) {ls : String} (hls : m.exists ls = true) (ld : String) (h0 : 0 ≤ radius)
    (htr : |F.rd (radius / m.resolution)| < F.top) (hn : ⌈F.rd (radius / m.resolution)⌉.toNat < 2 ^ 32 - 2) (hpop : PopOk pop)
    (hh : HypOk hyp ⌈F.rd (radius / m.resolution)⌉.toNat) (ho : UsedU F rf hyp computer m.resolution o) (log : List Idx) (thr : Cost) :
    ∃ c st', rebaseI F.rd m = (.ok (), c) ∧ inflateU F rf pop hyp ls ld (.fin radius) computer ⟨o, c, log⟩ = (.ok (), st') ∧
      ∀ p v, m.Clearly F.rd p → m.atPositionI F.rd ls p = .ok v → v < thr →
        m.RobotFitsI F.rd ls (radius * (1 + 1 / 2 ^ 53) + 3 * m.resolution) p → placeClearI F.rd st'.map ld thr p = .ok true := by
  obtain ⟨c, e, ch, cs, cz, cl, cr, cp, cx, cc, cat⟩ := C115_same_machine hrd hF htop hm hfit
  have back : ∀ {p}, c.Clearly F.rd p → m.Clearly F.rd p := fun h => clearly_congr cz cl cr cp h
  rw [← cr] at htr hn hh ho ⊢
  obtain ⟨st', e', h⟩ := C116_complete_machine hrd hF htop ch cs ((cx ls).trans hls) ld h0 htr hn hpop hh ho log thr
  refine ⟨c, st', e, e', fun p v hp hv hlt hf => h p v (cc p hp) (by rw [cat ls p hls hp]; exact hv) hlt fun x hx hxc => ?_⟩
  rw [cat ls x hls (back hxc)]
  exact hf x hx (back hxc)

/-- C123 on the machine, the other way round: where the cost is below the threshold, and a robot fits that is larger than the radius of inflation by
three cells and a rounding error, the subscriber finds "clear". -/
theorem C123_complete_machine_partial (hrd : DoublePrecision F.rd) (hF : IntsExact F.rd) (htop : 2 ^ 31 ≤ F.top) (hm : HeldI w F rf m)
    (hfit : w.Geometry m.length m.resolution m.position) (ht : m.timestamp < 2 ^ 32 * 10 ^ 9) (sx : m.startIndex.x < 2 ^ 16)
    (sy : m.startIndex.y < 2 ^ 16) {ls : String} (hls : m.exists ls = true) (ld : String) (h0 : 0 ≤ radius)
    (htr : |F.rd (radius / m.resolution)| < F.top) (hn : ⌈F.rd (radius / m.resolution)⌉.toNat < 2 ^ 32 - 2) (hpop : PopOk pop)
    (hh : HypOk hyp ⌈F.rd (radius / m.resolution)⌉.toNat) (ho : UsedU F rf hyp computer m.resolution o) (thr : Cost) :
    ∃ msg, m.toMessage = .ok msg ∧ ∀ map : CostMap K, Receives w F rf map → ∀ p v, m.Clearly F.rd p → m.atPositionI F.rd ls p = .ok v → v < thr →
      m.RobotFitsI F.rd ls (radius * (1 + 1 / 2 ^ 53) + 3 * m.resolution) p →
        receivedI F.rd msg (rebasedI F.rd (inflatedI F rf pop hyp ls ld radius computer o fun w => placeClearI F.rd w ld thr p)) map = .ok true := by
  have iw := held_inWorld hrd hF htop hm
  have hl := (iw.coherent.mem_iff ls).mpr hls
  obtain ⟨msg, e, h⟩ := topic_machine hrd hF htop hm hfit ht sx sy
  refine ⟨msg, e, fun map hmap p v hp hv hlt hf => ?_⟩
  obtain ⟨c, e0, ch, cp⟩ := h map hmap
  have cc := (held_inWorld hrd hF htop ch).coherent
  have ce : c.exists ls = true := (cc.mem_iff ls).mp ((cp.layers ls).mpr (.inl hl))
  have cl := (same_machine (rd := F.rd) cp.geometry).2.2.2.2.2
  have cr := cp.geometry.resolution
  have back : ∀ {p}, c.Clearly F.rd p → m.Clearly F.rd p := fun h => clearly_congr cp.geometry.size cp.geometry.length cr cp.geometry.position h
  have hfit' : w.Geometry c.length c.resolution c.position := by rw [cp.geometry.length, cr, cp.geometry.position]; exact hfit
  rw [← cr] at htr hn hh ho hf
  obtain ⟨n', st', e1, e2, h3⟩ := C116_complete_moved_machine hrd hF htop ch hfit' ce ld h0 htr hn hpop hh ho [] thr
  unfold receivedI rebasedI inflatedI
  rw [e0]; dsimp only; rw [e1]; dsimp only; rw [e2]
  refine h3 p v (cl p hp) (by rw [(C112_lookup cp F.rd p).2 ls hl]; exact hv) hlt fun x hx hxc => ?_
  rw [(C112_lookup cp F.rd x).2 ls hl]
  exact hf x hx (back hxc)

/-- A robot that fits in the ROS costmap fits in the map made of it, if it is smaller by a cell. -/
theorem ros_backI {c : Costmap2DROS K} {rd : K → K} {l : String} {ρ : K} {p : Vec K} (hrd : DoublePrecision rd) (hg : m.GeoRd rd) (ht : m.Tame43)
    (hm : m.Small) (hs : m.startIndex = ⟨0, 0⟩) (hr : m.resolution = c.costmap.resolution) (h0 : 0 ≤ ρ)
    (hz : m.size = ⟨c.costmap.sizeX, c.costmap.sizeY⟩)
    (hx : |m.position.x - (c.costmap.origin.x + c.costmap.sizeX * c.costmap.resolution / 2)| ≤ c.costmap.resolution / 16)
    (hy : |m.position.y - (c.costmap.origin.y + c.costmap.sizeY * c.costmap.resolution / 2)| ≤ c.costmap.resolution / 16)
    (hcell : ∀ col row x, col < c.costmap.sizeX → row < c.costmap.sizeY →
      |x.x - (c.costmap.cellCentre col row).x| ≤ c.costmap.resolution / 4 → |x.y - (c.costmap.cellCentre col row).y| ≤ c.costmap.resolution / 4 →
      m.Clearly rd x ∧ ∃ v, c.costmap.cell col row = some v ∧ m.atPositionI rd l x = .ok v)
    (h : c.costmap.RobotFits (ρ + c.costmap.resolution) p) : m.RobotFitsI rd l ρ p := by
  intro x hxu hxc hlet
  obtain ⟨i, y, y1, y2, y3, y4⟩ := lethal_centreI hrd hg ht hm hxc hlet
  have hi := getPositionRd_in y1
  obtain ⟨y', y1', -, y5, y6, y7⟩ := centre_clearly hrd hg ht hm hi
  obtain rfl : y = y' := by rw [y1] at y1'; exact Option.some.inj y1'
  rw [logical_zero hs hi] at y6 y7
  have hres := hg.res_pos
  rw [hr] at y3 y4 y6 y7 hres
  obtain ⟨i1, i2, i3, i4⟩ := hi
  rw [hz] at i2 i4
  simp only at i2 i4
  obtain ⟨col, hcol⟩ : ∃ col : Nat, (col : Int) = c.costmap.sizeX - 1 - i.x := ⟨((c.costmap.sizeX : Int) - 1 - i.x).toNat, by omega⟩
  obtain ⟨row, hrow⟩ : ∃ row : Nat, (row : Int) = c.costmap.sizeY - 1 - i.y := ⟨((c.costmap.sizeY : Int) - 1 - i.y).toNat, by omega⟩
  have kx : (i.x : K) = c.costmap.sizeX - 1 - col := by
    have : i.x = c.costmap.sizeX - 1 - col := by omega
    rw [this]; push_cast; ring
  have ky : (i.y : K) = c.costmap.sizeY - 1 - row := by
    have : i.y = c.costmap.sizeY - 1 - row := by omega
    rw [this]; push_cast; ring
  have axis : ∀ {yy pos org n k j : K}, j = n - 1 - k → |pos - (org + n * c.costmap.resolution / 2)| ≤ c.costmap.resolution / 16 →
      |yy - (pos + n * c.costmap.resolution / 2 - (j + 1 / 2) * c.costmap.resolution)| ≤ c.costmap.resolution / 32 →
      |yy - (org + (k + 1 / 2) * c.costmap.resolution)| ≤ 3 / 32 * c.costmap.resolution := by
    intro yy pos org n k j e a b
    subst e
    obtain ⟨a1, a2⟩ := abs_le.mp a
    obtain ⟨b1, b2⟩ := abs_le.mp b
    rw [abs_le]
    constructor <;> linarith
  have cornerx : m.corner.x = m.position.x + (c.costmap.sizeX : K) * c.costmap.resolution / 2 := by unfold corner; rw [hz, hr]; push_cast; ring
  have cornery : m.corner.y = m.position.y + (c.costmap.sizeY : K) * c.costmap.resolution / 2 := by unfold corner; rw [hz, hr]; push_cast; ring
  rw [cornerx] at y6
  rw [cornery] at y7
  have zx : |y.x - (c.costmap.cellCentre col row).x| ≤ 3 / 32 * c.costmap.resolution := axis kx hx y6
  have zy : |y.y - (c.costmap.cellCentre col row).y| ≤ 3 / 32 * c.costmap.resolution := axis ky hy y7
  obtain ⟨-, v, v1, v2⟩ := hcell col row y (by omega) (by omega) (by linarith) (by linarith)
  rw [y5, y2] at v2
  rw [← Res.ok.inj v2] at v1
  have near : ∀ {a b z : K}, |a - z| ≤ c.costmap.resolution / 2 + c.costmap.resolution / 32 → |a - b| ≤ 3 / 32 * c.costmap.resolution →
      |b - z| ≤ 11 / 16 * c.costmap.resolution := by
    intro a b z h1 h2
    obtain ⟨a1, a2⟩ := abs_le.mp h1
    obtain ⟨b1, b2⟩ := abs_le.mp h2
    rw [abs_le]
    constructor <;> linarith
  refine h col row v1 (c.costmap.cellCentre col row) ?_ ⟨by simp only [sub_self, abs_zero]; positivity, by simp only [sub_self, abs_zero]; positivity⟩
  unfold UnderRobot at hxu ⊢
  have d := offset_bound (near y3 zx) (near y4 zy) hxu h0 (by positivity)
  rw [show ((c.costmap.cellCentre col row).x - p.x) ^ 2 + ((c.costmap.cellCentre col row).y - p.y) ^ 2 =
    ((c.costmap.cellCentre col row).x - x.x + (x.x - p.x)) ^ 2 + ((c.costmap.cellCentre col row).y - x.y + (x.y - p.y)) ^ 2 by ring]
  exact d.trans (pow_le_pow_left₀ (by positivity) (by linarith) 2)

/-- C122 on the machine, the other way round: in the middle of a cell of the ROS costmap with a cost below the threshold, where a robot fits that is
larger than the radius of inflation by four cells and a rounding error, the answer is "clear". -/
theorem C122_complete_machine {c : Costmap2DROS K} (hrd : DoublePrecision F.rd) (hF : IntsExact F.rd) (htop : 2 ^ 31 ≤ F.top)
    (hw : w.Costmap c.costmap) (ls ld : String)
    (h0 : 0 ≤ radius) (htr : |F.rd (radius / c.costmap.resolution)| < F.top) (hn : ⌈F.rd (radius / c.costmap.resolution)⌉.toNat < 2 ^ 32 - 2)
    (hpop : PopOk pop) (hh : HypOk hyp ⌈F.rd (radius / c.costmap.resolution)⌉.toNat) (ho : UsedU F rf hyp computer c.costmap.resolution o) (thr : Cost)
    {col row : Nat} {v : Cost} (hv : c.costmap.cell col row = some v) (hlt : v < thr) {p : Vec K}
    (hx : |p.x - (c.costmap.cellCentre col row).x| ≤ c.costmap.resolution / 4) (hy : |p.y - (c.costmap.cellCentre col row).y| ≤ c.costmap.resolution / 4)
    (hfit : c.costmap.RobotFits (radius * (1 + 1 / 2 ^ 53) + 4 * c.costmap.resolution) p) :
    withRosI F.rd c ls (inflatedI F rf pop hyp ls ld radius computer o fun w => placeClearI F.rd w ld thr p) = .ok true := by
  obtain ⟨m, ⟨mz, m1, m2⟩, hm, mh, ms, mr, me, mi, hcell⟩ := ros_machine_near (rf := rf) hrd hF htop hw ls
  have iw := held_inWorld hrd hF htop mh
  have hcr : col < c.costmap.sizeX ∧ row < c.costmap.sizeY := by
    by_contra h'
    unfold Costmap2D.cell at hv
    rw [if_neg h'] at hv
    cases hv
  obtain ⟨hp, v', v1, v2⟩ := hcell col row p hcr.1 hcr.2 hx hy
  obtain rfl : v = v' := by rw [hv] at v1; exact Option.some.inj v1
  have hres := hw.ok.res
  have hfit' : m.RobotFitsI F.rd ls (radius * (1 + 1 / 2 ^ 53) + 3 * m.resolution) p := by
    refine ros_backI hrd iw.geo iw.tame43 iw.small ms mr ?_ mz m1 m2 hcell ?_
    · rw [mr]; exact add_nonneg (mul_nonneg h0 (by positivity)) (by positivity)
    · rw [mr, show radius * (1 + 1 / 2 ^ 53) + 3 * c.costmap.resolution + c.costmap.resolution = radius * (1 + 1 / 2 ^ 53) + 4 * c.costmap.resolution by ring]
      exact hfit
  rw [← mr] at htr hn hh ho
  obtain ⟨st', e, h⟩ := C116_complete_machine hrd hF htop mh ms me ld h0 htr hn hpop hh ho [] thr
  rw [hm]
  unfold inflatedI
  rw [e]
  exact h p v hp v2 hlt hfit'

/-- C121 on the machine, the other way round: where the cost stays below the threshold even if it grows by one, and a robot fits that is larger than the
radius of inflation by three cells and a rounding error, the answer is "clear". -/
theorem C121_complete_machine {cv : Cv} {txt : K → K} (hcv : cv.GrayOk) (hrd : DoublePrecision F.rd) (hF : IntsExact F.rd) (htop : 2 ^ 31 ≤ F.top)
    (hrf : Close24 rf)
    (hi : ∀ n : Nat, n < 2 ^ 23 → rf n = n) (hm : HeldI w F rf m) (hfit : w.Geometry m.length m.resolution m.position) (hs : w.Saves rf txt m)
    (hd : m.position.y = m.position.x) (hp : txt m.position.x = m.position.x) (hr : rf (txt m.resolution) = m.resolution) (files : Files K)
    {ls : String} (hls : m.exists ls = true) (ld : String) (h0 : 0 ≤ radius)
    (htr : |F.rd (radius / m.resolution)| < F.top) (hn : ⌈F.rd (radius / m.resolution)⌉.toNat < 2 ^ 32 - 2) (hpop : PopOk pop)
    (hh : HypOk hyp ⌈F.rd (radius / m.resolution)⌉.toNat) (ho : UsedU F rf hyp computer m.resolution o) (thr : Cost) :
    ∃ files', saveCopyI F.rd txt m files = .ok files' ∧ ∀ p v, m.Clearly F.rd p → m.atPositionI F.rd ls p = .ok v → v.toNat + 1 < thr.toNat →
      m.RobotFitsI F.rd ls (radius * (1 + 1 / 2 ^ 53) + 3 * m.resolution) p →
        loadedI F.rd rf cv files' (inflatedI F rf pop hyp ls ld radius computer o fun w => placeClearI F.rd w ld thr p) = .ok true := by
  obtain ⟨files', s, ⟨sz, sl, sp⟩, es, hl, sh, s0, sr, se, sc, sat⟩ := saved_machine_geo hcv hrd hF htop hrf hi hm hfit hs hd hp hr files
  have iw := held_inWorld hrd hF htop hm
  rw [← sr] at htr hn hh ho ⊢
  obtain ⟨st', e, h⟩ := C116_complete_machine hrd hF htop sh s0 (se _ hls) ld h0 htr hn hpop hh ho [] thr
  refine ⟨files', es, fun p v hp hv hlt hf => ?_⟩
  rw [hl]
  unfold inflatedI
  rw [e]
  refine h p (reloaded v) (sc p hp) (sat _ _ _ hls hp hv) ?_ fun x hx hxc hlet => ?_
  · have := abs_le.mp (reloaded_spec.2.2.2.2.2.2 v)
    rw [UInt8.lt_iff_toNat_lt]
    omega
  · have hxm : m.Clearly F.rd x := clearly_congr sz sl sr sp hxc
    obtain ⟨c, hcx⟩ : ∃ c, m.atPositionI F.rd ls x = .ok c := by
      obtain ⟨i, q, ei, hin, -⟩ := C74_containing_cell_partial hrd iw.geo iw.tame hxm.inside hxm.x hxm.y
      obtain ⟨c, h⟩ := iw.coherent.at_ok hls hin
      exact ⟨c, by rw [clearly_at hrd iw.geo iw.tame iw.small hxm, ei]; exact h⟩
    rw [sat _ _ _ hls hxm hcx] at hlet
    exact hf x hx hxm (by rw [hcx, reloaded_lethal (Res.ok.inj hlet)])

end

open Demo in
/-- The map of 7 x 7 cells of 0.1 with an obstacle at (0.1, 0), sent to a subscriber that holds another map: "clear" at (0.4, 0.3). -/
example : ∃ msg, tenthPillar.toMessage = .ok msg ∧
    receivedI toDouble msg (rebasedI toDouble (inflatedI binary64 toFloat pop (fun i j => toFloat (hypot i j)) "a" "t" (1 / 100) (fun _ => 253) Inflater.new
      fun w => placeClearI toDouble w "t" 253 ⟨2 / 5, 3 / 10⟩)) quarterMap = .ok true := by
  have hn : ⌈binary64.rd (1 / 100 / tenthPillar.resolution)⌉.toNat = 1 := by decide +kernel
  have cl := tenthPillar_clearly (2 / 5) (3 / 10) (by decide +kernel)
  obtain ⟨msg, h1, h2⟩ := C123_complete_machine_partial (F := binary64) (rf := toFloat) (radius := 1 / 100) (computer := fun _ => 253) (pop := pop)
    (hyp := fun i j => toFloat (hypot i j)) (o := Inflater.new) toDouble_precision toDouble_ints top64 tenthPillar_held
    ⟨by decide +kernel, by decide +kernel, by decide +kernel, by decide +kernel, by decide +kernel, by unfold PointIn; decide +kernel⟩
    (by decide +kernel) (by decide +kernel) (by decide +kernel) (ls := "a") (by decide +kernel) "t" (by norm_num)
    (by decide +kernel) (by rw [hn]; norm_num) pop_ok (by rw [hn]; exact (C91_hypot hypot_ok _).2 (by norm_num)) .new 253
  exact ⟨msg, h1, h2 quarterMap (.inr quarterMap_held) ⟨2 / 5, 3 / 10⟩ 0 cl (by decide +kernel) (by decide +kernel) tenthPillar_fits⟩

open Demo in
example : ∃ c st', rebaseI toDouble tenthPillar = (.ok (), c) ∧ inflateU binary64 toFloat pop (fun i j => toFloat (hypot i j)) "a" "t" (.fin (1 / 100))
    (fun _ => 253) ⟨Inflater.new, c, []⟩ = (.ok (), st') ∧ placeClearI toDouble st'.map "t" 253 ⟨2 / 5, 3 / 10⟩ = .ok true := by
  have hn : ⌈binary64.rd (1 / 100 / tenthPillar.resolution)⌉.toNat = 1 := by decide +kernel
  have cl := tenthPillar_clearly (2 / 5) (3 / 10) (by decide +kernel)
  obtain ⟨c, st', h1, h2, h3⟩ := C116_complete_moved_machine (F := binary64) (rf := toFloat) (radius := 1 / 100) (computer := fun _ => 253) (pop := pop)
    (hyp := fun i j => toFloat (hypot i j)) (o := Inflater.new) toDouble_precision toDouble_ints top64 tenthPillar_held
    ⟨by decide +kernel, by decide +kernel, by decide +kernel, by decide +kernel, by decide +kernel, by unfold PointIn; decide +kernel⟩
    (ls := "a") (by decide +kernel) "t" (by norm_num)
    (by decide +kernel) (by rw [hn]; norm_num) pop_ok (by rw [hn]; exact (C91_hypot hypot_ok _).2 (by norm_num)) .new [] 253
  exact ⟨c, st', h1, h2, h3 ⟨2 / 5, 3 / 10⟩ 0 cl (by decide +kernel) (by decide +kernel) tenthPillar_fits⟩

open Demo in
/-- The ROS costmap with an obstacle in column 7 and row 1, inflated by 0.01 m: "clear" in the middle of the first cell. -/
example : withRosI toDouble tenthWall "s" (inflatedI binary64 toFloat pop (fun i j => toFloat (hypot i j)) "s" "t" (1 / 100) (fun _ => 253) Inflater.new
    fun w => placeClearI toDouble w "t" 253 ⟨5 / 100, 5 / 100⟩) = .ok true := by
  have hn : ⌈binary64.rd (1 / 100 / tenthWall.costmap.resolution)⌉.toNat = 1 := by decide +kernel
  refine C122_complete_machine (F := binary64) (rf := toFloat) (c := tenthWall) (pop := pop) (radius := 1 / 100) (computer := fun _ => 253)
    (hyp := fun i j => toFloat (hypot i j)) (o := Inflater.new) toDouble_precision toDouble_ints top64
    tenthWall_costmap "s" "t" (by norm_num) (by decide +kernel) (by rw [hn]; norm_num) pop_ok
    (by rw [hn]; exact (C91_hypot hypot_ok _).2 (by norm_num)) .new 253 (col := 0) (row := 0) (v := 0) (by decide +kernel) (by decide)
    (by decide +kernel) (by decide +kernel) fun col row hlet x hx hin => ?_
  have hcr : col < 10 ∧ row < 3 := by
    by_contra h'
    unfold Costmap2D.cell at hlet
    rw [if_neg (show ¬ (col < tenthWall.costmap.sizeX ∧ row < tenthWall.costmap.sizeY) from h')] at hlet
    cases hlet
  have hall : ∀ a : Fin 10, ∀ b : Fin 3, tenthWall.costmap.cell a.val b.val = some LETHAL_OBSTACLE → a.val = 7 := by decide +kernel
  obtain rfl : col = 7 := hall ⟨col, hcr.1⟩ ⟨row, hcr.2⟩ hlet
  have h1 := (abs_le.mp hin.1).1
  have hr1 : 999 / 10000 ≤ tenthWall.costmap.resolution := by decide +kernel
  have hr2 : tenthWall.costmap.resolution ≤ 1001 / 10000 := by decide +kernel
  have ho : tenthWall.costmap.origin.x = 0 := by decide +kernel
  unfold Costmap2D.cellCentre at h1
  rw [ho] at h1
  push_cast at h1
  have hX : 69 / 100 ≤ x.x := by linarith
  unfold UnderRobot at hx
  simp only at hx
  have h3 : (1 / 100 * (1 + 1 / 2 ^ 53) + 4 * tenthWall.costmap.resolution) ^ 2 ≤ (411 / 1000) ^ 2 :=
    pow_le_pow_left₀ (by positivity) (by norm_num; linarith) 2
  nlinarith [sq_nonneg (x.y - 5 / 100)]

namespace Demo

/-- Nine cells of a quarter in a row around (1, 1). -/
def quarterRowEmpty : CostMap ℚ := (setGeometryI toDouble ⟨9 / 4, 1 / 4⟩ (1 / 4) ⟨1, 1⟩ (CostMap.new [])).2

/-- The same with a lethal cell at its lower end. -/
def quarterRow : CostMap ℚ := (CostMap.add "a" (Mat.ofFn 9 1 fun i _ => if i = 8 then 254 else 0) quarterRowEmpty).2

theorem quarterRow_held : HeldI hundred binary64 toFloat quarterRow := by
  refine .returned (.plain (.add "a" (Mat.ofFn 9 1 fun i _ => if i = 8 then 254 else 0))) (m := quarterRowEmpty) ?_ trivial
    (ok_pair (by decide +kernel))
  exact .new (ls := []) (.setGeometry ⟨9 / 4, 1 / 4⟩ (1 / 4) ⟨1, 1⟩) (by simp) trivial
    ⟨by decide +kernel, by decide +kernel, by decide +kernel, by decide +kernel, by decide +kernel, by unfold PointIn; decide +kernel⟩
    (ok_pair (by decide +kernel))

end Demo

open Demo in
/-- The row, saved and loaded by another process on the machine: "clear" at its upper end. -/
example : ∃ files', saveCopyI toDouble id quarterRow ⟨.missing, fun _ => none⟩ = .ok files' ∧
    loadedI toDouble toFloat Demo.cv files' (inflatedI binary64 toFloat pop (fun i j => toFloat (hypot i j)) "a" "t" (1 / 4) (fun _ => 253) Inflater.new
      fun w => placeClearI toDouble w "t" 253 ⟨2, 1⟩) = .ok true := by
  have hn : ⌈binary64.rd (1 / 4 / quarterRow.resolution)⌉.toNat = 1 := by decide +kernel
  obtain ⟨files', h1, h2⟩ := C121_complete_machine (F := binary64) (rf := toFloat) (txt := id) (radius := 1 / 4) (computer := fun _ => 253)
    (pop := pop) (hyp := fun i j => toFloat (hypot i j)) (o := Inflater.new)
    Demo.cv_grayOk toDouble_precision toDouble_ints top64 close24_toFloat toFloat_cells quarterRow_held
    ⟨by decide +kernel, by decide +kernel, by decide +kernel, by decide +kernel, by decide +kernel, by unfold PointIn; decide +kernel⟩
    ⟨by decide +kernel, by decide +kernel, by decide +kernel, by decide +kernel, by decide +kernel⟩ (by decide +kernel) rfl (by decide +kernel)
    ⟨.missing, fun _ => none⟩ (ls := "a") (by decide +kernel) "t" (by norm_num) (by decide +kernel) (by rw [hn]; norm_num) pop_ok
    (by rw [hn]; exact (C91_hypot hypot_ok _).2 (by norm_num)) .new 253
  have hw := held_inWorld (F := binary64) toDouble_precision toDouble_ints top64 quarterRow_held
  have cl : quarterRow.isInsideRd toDouble ⟨2, 1⟩ = true ∧ quarterRow.position.x - quarterRow.length.x / 2 + quarterRow.tolX ≤ 2 ∧
      quarterRow.position.y - quarterRow.length.y / 2 + quarterRow.tolY ≤ 1 := by decide +kernel
  refine ⟨files', h1, h2 ⟨2, 1⟩ 0 ⟨cl.1, cl.2.1, cl.2.2⟩ (by decide +kernel) (by decide) fun x hx hxc hlet => ?_⟩
  rw [clearly_at (rd := binary64.rd) toDouble_precision hw.geo hw.tame hw.small hxc] at hlet
  obtain ⟨hin, ⟨q1, -⟩, -⟩ := clearly_cell (rd := binary64.rd) toDouble_precision hw.geo hw.tame43 (by decide +kernel) hxc
  have key : ∀ q ∈ colMajor 9 1, quarterRow.at "a" q = .ok LETHAL_OBSTACLE → q = ⟨8, 0⟩ := by decide +kernel
  have hq := key _ (mem_colMajor.mpr (by
    rw [show quarterRow.size = ⟨9, 1⟩ from by decide +kernel] at hin
    unfold Idx.In at hin
    simp only at hin
    omega)) hlet
  rw [hq, show quarterRow.resolution = 1 / 4 from by decide +kernel, show quarterRow.corner.x = 17 / 8 from by decide +kernel,
    le_div_iff₀ (by norm_num)] at q1
  push_cast at q1
  have hX : x.x ≤ 2 / 10 := by linarith
  rw [show quarterRow.resolution = 1 / 4 from by decide +kernel] at hx
  unfold UnderRobot at hx
  norm_num at hx
  nlinarith [sq_nonneg (x.y - 1)]

end CostMapModel

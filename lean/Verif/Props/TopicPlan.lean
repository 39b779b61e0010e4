import Verif.Model.TopicPlan
import Verif.Spec.TopicPlan
import Verif.Props.RemoteCopy
import Verif.Props.PlaceCheck
import Verif.Props.Window
import Verif.Props.MachinePlace
import Verif.Props.MachineWindow
import Verif.Props.MachineBundle

/-! # C123: planning with the maps of a topic -/

set_option linter.unusedSectionVars false

namespace CostMapModel
open Inflation CostMap

section
variable {K : Type} [Field K] [LinearOrder K] [IsStrictOrderedRing K] [FloorRing K]

/-- What a message says about its map. -/
theorem toMessage_inv {m : CostMap K} {msg : CostMapMsg K} (h : m.toMessage = .ok msg) :
    msg.resolution = m.resolution ∧ msg.lengthX = m.length.x ∧ msg.lengthY = m.length.y ∧ msg.position = m.position ∧
      msg.outerStartIndex = UInt16.ofInt m.startIndex.x ∧ msg.innerStartIndex = UInt16.ofInt m.startIndex.y ∧ m.layerArrays m.layers = .ok msg.data := by
  unfold toMessage at h
  cases h1 : stampOf m.timestamp with
  | ok t =>
    rw [h1, Res.bind_ok] at h
    cases h2 : m.layerArrays m.layers with
    | ok as =>
      rw [h2, Res.bind_ok] at h
      cases h
      exact ⟨rfl, rfl, rfl, rfl, rfl, rfl, rfl⟩
    | _ => rw [h2] at h; cases h
  | _ => rw [h1] at h; cases h

/-- The layers of a message that was made of a map are complete. -/
theorem toMessage_complete {m : CostMap K} (hc : m.Coherent) {msg : CostMapMsg K} (h : m.toMessage = .ok msg) : ∀ a ∈ msg.data, a.Complete := by
  have hd : ∀ l ∈ m.layers, m.data l = some ((m.data l).getD Mat.empty) := by
    intro l hl
    obtain ⟨a, ha⟩ := Option.isSome_iff_exists.1 ((hc.mem_iff l).1 hl)
    rw [ha]; rfl
  have hl := (toMessage_inv h).2.2.2.2.2.2
  rw [layerArrays_eq hd] at hl
  rw [← Res.ok.inj hl]
  intro a ha
  obtain ⟨l, -, rfl⟩ := List.mem_map.mp ha
  refine ⟨by simp [MultiArray.ofMat], fun cols rows h1 h2 => ?_⟩
  simp only [MultiArray.ofMat, List.getElem?_cons_zero, List.getElem?_cons_succ, Option.some.injEq] at h1 h2
  subst h1; subst h2
  simp only [MultiArray.ofMat, Mat.size_eq]
  refine Nat.mul_le_mul ?_ ?_ <;> simp only [UInt32.toNat_ofNat'] <;> exact Nat.mod_le _ _

variable {pop : Pop K} {hyp : Nat → Nat → K} {computer : K → Cost} {radius : K} {o : Inflater K} {m : CostMap K}

/-- Looking up positions in a copy. -/
theorem copy_lookup {older : List String} {c : CostMap K} (h : CopyOf m older c) :
    (∀ p, c.isInside p = m.isInside p) ∧ ∀ l ∈ m.layers, ∀ p, c.atPosition l p = m.atPosition l p := by
  refine ⟨fun p => ?_, fun l hl p => ?_⟩
  · unfold CostMap.isInside; rw [h.geometry.length, h.geometry.position]
  · unfold CostMap.atPosition
    rw [getIndex_congr h.geometry p]
    simp only [h.costs l hl]

/-- The copy in the subscriber's map. -/
theorem topic_spec (hg : m.Geo) (hc : m.Coherent) (ht : m.timestamp < 2 ^ 32 * 10 ^ 9) (hx : m.size.x < 2 ^ 31) (hy : m.size.y < 2 ^ 31)
    (sx : m.startIndex.x < 2 ^ 16) (sy : m.startIndex.y < 2 ^ 16) :
    ∃ msg, m.toMessage = .ok msg ∧ ∀ map : CostMap K, map.Coherent → ∃ c, (∀ rest, received msg rest map = rest c) ∧ c.Geo ∧ c.Coherent ∧
      c.resolution = m.resolution ∧ (∀ l, m.exists l = true → c.exists l = true) ∧ (∀ p, c.isInside p = m.isInside p) ∧
      ∀ l p, m.exists l = true → c.atPosition l p = m.atPosition l p := by
  obtain ⟨msg, e, h⟩ := C48_message_round_trip_partial hg hc ht hx hy sx sy
  obtain ⟨i1, i2, -⟩ := toMessage_inv e
  have h1 : (1 : K) ≤ m.size.x := by exact_mod_cast hg.size_x
  have h2 := mul_le_mul_of_nonneg_right h1 hg.res_pos.le
  refine ⟨msg, e, fun map hm => ?_⟩
  obtain ⟨c, e', cc, cp⟩ := message_into hc (h _ ⟨new_coherent (by simp), rfl⟩)
    (by rw [i1, i2, hg.len_x]; have := hg.res_pos; linarith) hm
  obtain ⟨k1, k2⟩ := copy_lookup cp
  exact ⟨c, fun rest => by unfold received; rw [e'], cp.geometry.geo hg, cc, cp.geometry.resolution,
    fun l hl => (cc.mem_iff l).mp ((cp.layers l).mpr (.inl ((hc.mem_iff l).mpr hl))), k1, fun l p hl => k2 l ((hc.mem_iff l).mpr hl) p⟩

/-- C123. A map is published, moved or not, and a subscriber reads the message into its map, whatever that holds, makes a copy of it, inflates the copy and looks
at one cost or along a straight way. There is an answer for every position inside the map that was published; and if it is "clear", the robot touches no
obstacle of that map. -/
theorem C123_fits_partial (norm : Vec K → K) (hg : m.Geo) (hc : m.Coherent) (ht : m.timestamp < 2 ^ 32 * 10 ^ 9) (hx : m.size.x < 2 ^ 31) (hy : m.size.y < 2 ^ 31)
    (sx : m.startIndex.x < 2 ^ 16) (sy : m.startIndex.y < 2 ^ 16) {ls : String} (hls : m.exists ls = true) (ld : String)
    (hn : radiusInCells radius m.resolution < 2 ^ 32 - 1) (hpop : PopOk pop)
    (hh : HypOk hyp (radiusInCells radius m.resolution)) (ho : Used hyp computer m.resolution o) {thr : Cost}
    (hthr : ∀ d, d ≤ m.resolution * (radiusInCells radius m.resolution : K) → thr ≤ computer d) {ρ : K}
    (h3 : 3 ≤ radiusInCells radius m.resolution) (hρ : 2 * ρ ^ 2 ≤ (((radiusInCells radius m.resolution : K) - 3) * m.resolution) ^ 2) :
    ∃ msg, m.toMessage = .ok msg ∧ ∀ map : CostMap K, map.Coherent →
      (∀ p, m.isInside p = true → ∃ r,
        received msg (rebased (inflated pop hyp ls ld radius computer o fun w => placeClear w ld thr p)) map = .ok r ∧ (r = true → m.RobotFits ls ρ p)) ∧
      ∀ a b, m.isInside a = true → m.isInside b = true → ∃ r,
        received msg (rebased (inflated pop hyp ls ld radius computer o fun w => wayClear norm w ld thr a b)) map = .ok r ∧
          (r = true → ∀ p, OnWay a b p → m.RobotFits ls ρ p) := by
  obtain ⟨msg, e, h⟩ := topic_spec hg hc ht hx hy sx sy
  refine ⟨msg, e, fun map hm => ?_⟩
  obtain ⟨c, hrec, cg, cc, cr, ce, ci, cat⟩ := h map hm
  have hfit : ∀ {p}, c.RobotFits ls ρ p → m.RobotFits ls ρ p := fun h x hx => by rw [← cat ls x hls]; exact h x hx
  rw [← cr] at hn hh ho hthr h3 hρ
  obtain ⟨n, st', e1, e2, hp, hw⟩ := C116_moved norm cg cc (ce _ hls) ld hn hpop hh ho [] hthr h3 hρ
  refine ⟨fun p hpi => ?_, fun a b ha hb => ?_⟩
  · obtain ⟨r, hr, hrt⟩ := hp p (by rw [ci, hpi])
    exact ⟨r, by rw [hrec]; unfold rebased inflated; rw [e1]; dsimp only; rw [e2]; exact hr, fun h => hfit (hrt h)⟩
  · obtain ⟨r, hr, hrt⟩ := hw a b (by rw [ci, ha]) (by rw [ci, hb])
    exact ⟨r, by rw [hrec]; unfold rebased inflated; rw [e1]; dsimp only; rw [e2]; exact hr, fun h p hp => hfit (hrt h p hp)⟩

/-- C123, the other way round: where the published map's cost is below the threshold and a robot with a margin of a cell fits, the subscriber answers "clear". -/
theorem C123_complete_partial (hg : m.Geo) (hc : m.Coherent) (ht : m.timestamp < 2 ^ 32 * 10 ^ 9) (hx : m.size.x < 2 ^ 31) (hy : m.size.y < 2 ^ 31)
    (sx : m.startIndex.x < 2 ^ 16) (sy : m.startIndex.y < 2 ^ 16) {ls : String} (hls : m.exists ls = true) (ld : String)
    (hn : radiusInCells radius m.resolution < 2 ^ 32 - 1) (hpop : PopOk pop)
    (hh : HypOk hyp (radiusInCells radius m.resolution)) (ho : Used hyp computer m.resolution o) (thr : Cost) :
    ∃ msg, m.toMessage = .ok msg ∧ ∀ map : CostMap K, map.Coherent → ∀ p v, m.atPosition ls p = .ok v → v < thr →
      m.RobotFits ls (((radiusInCells radius m.resolution : K) + 1) * m.resolution) p →
        received msg (rebased (inflated pop hyp ls ld radius computer o fun w => placeClear w ld thr p)) map = .ok true := by
  obtain ⟨msg, e, h⟩ := topic_spec hg hc ht hx hy sx sy
  refine ⟨msg, e, fun map hm p v hv hlt hfit => ?_⟩
  obtain ⟨c, hrec, cg, cc, cr, ce, ci, cat⟩ := h map hm
  obtain ⟨n, e1, ng, nc, ns, -, -, nr, -, nx, ni, nat⟩ := C115_same cg cc
  have hr : n.resolution = m.resolution := nr.trans cr
  rw [← hr] at hn hh ho hfit
  obtain ⟨st', e2, h2⟩ := C116_complete (o := o) (pop := pop) ng nc ns (by rw [nx]; exact ce _ hls) ld hn hpop hh ho [] thr
  have same : ∀ x, n.atPosition ls x = m.atPosition ls x := fun x => by rw [nat ls x (ce _ hls), cat ls x hls]
  rw [hrec]
  unfold rebased inflated
  rw [e1]
  dsimp only
  rw [e2]
  exact h2 p v (by rw [same]; exact hv) hlt fun x hx => by rw [same]; exact hfit x hx

end

section
variable {K : Type} [Field K] [LinearOrder K] [IsStrictOrderedRing K] [FloorRing K]
variable {w : World K} {F : Fmt K} {rf : K → K} {pop : Pop K} {hyp : Nat → Nat → K} {computer : K → Cost} {radius : K} {o : Inflater K} {m : CostMap K}

/-- The copy in the subscriber's map, on the machine. -/
theorem topic_machine (hrd : DoublePrecision F.rd) (hF : IntsExact F.rd) (htop : 2 ^ 31 ≤ F.top) (hm : HeldI w F rf m)
    (hfit : w.Geometry m.length m.resolution m.position) (ht : m.timestamp < 2 ^ 32 * 10 ^ 9) (sx : m.startIndex.x < 2 ^ 16)
    (sy : m.startIndex.y < 2 ^ 16) :
    ∃ msg, m.toMessage = .ok msg ∧ ∀ map : CostMap K, Receives w F rf map → ∃ c, fromMessageI F.rd msg map = (.ok true, c) ∧ HeldI w F rf c ∧
      CopyOf m map.layers c := by
  have iw := held_inWorld hrd hF htop hm
  have hg := iw.geo
  obtain ⟨msg, e, h⟩ := messageI_into hrd iw ht sx sy
  obtain ⟨i1, i2, i3, i4, i5, i6, -⟩ := toMessage_inv e
  have h16 : ∀ i : Int, 0 ≤ i → i < 2 ^ 16 → ((UInt16.ofInt i).toNat : Int) = i := by
    intro i h1 h2
    have : (UInt16.ofInt i).toNat = (i % 2 ^ 16).toNat := UInt16.toNat_ofNat_of_lt' (show _ < 2 ^ 16 by omega)
    omega
  have start : ∀ {s n : Int}, 0 ≤ s → s < 2 ^ 16 → s < n → n ≤ 2 ^ 29 →
      (((UInt16.ofInt s).toNat : K) + 3 / 4) * m.resolution ≤ F.rd (n * m.resolution) := by
    intro s n h0 h1 h2 h3
    have e1 : ((UInt16.ofInt s).toNat : K) = (s : K) := by exact_mod_cast congrArg (Int.cast (R := K)) (h16 s h0 h1)
    have e2 : (s : K) + 1 ≤ n := by exact_mod_cast h2
    have e3 : (n : K) ≤ 2 ^ 29 := by exact_mod_cast h3
    have n0 : (0 : K) ≤ n := by exact_mod_cast (by omega : 0 ≤ n)
    have e4 := abs_le.mp (hrd (n * m.resolution))
    rw [abs_of_nonneg (mul_nonneg n0 hg.res_pos.le)] at e4
    have e5 := mul_le_mul_of_nonneg_right e2 hg.res_pos.le
    have e6 := mul_le_mul_of_nonneg_right e3 hg.res_pos.le
    have := hg.res_pos
    rw [e1]
    linarith [e4.1]
  have fits : ∀ map, w.Fits F rf map (.fromMessage msg) := fun map => by
    refine ⟨?_, ?_, ?_, toMessage_complete iw.coherent e⟩
    · rw [i1, i2, i3, i4]; exact hfit
    · rw [i1, i2, i5, hg.len_x]; exact start hg.start.1 sx hg.start.2.1 iw.small.x
    · rw [i1, i3, i6, hg.len_y]; exact start hg.start.2.2.1 sy hg.start.2.2.2 iw.small.y
  refine ⟨msg, e, fun map hmap => ?_⟩
  have run : ∀ {c}, fromMessageI F.rd msg map = (.ok true, c) → (MachineCall.fromMessage msg).run F rf map = (.ok (), c) := fun h => by
    show Call.discard (fromMessageI F.rd msg) map = _
    unfold Call.discard
    rw [Act.bind_ok h]
    rfl
  rcases hmap with ⟨ls, hnd, rfl⟩ | hheld
  · obtain ⟨c, e', -, cp⟩ := h _ (new_coherent hnd)
    exact ⟨c, e', .new (.fromMessage msg) hnd trivial (fits _) (run e'), cp⟩
  · obtain ⟨c, e', -, cp⟩ := h _ (held_inWorld hrd hF htop hheld).coherent
    exact ⟨c, e', .returned (.fromMessage msg) hheld (fits _) (run e'), cp⟩

/-- C123 on the machine, for every map that calls can reach, and every subscriber. -/
theorem C123_fits_machine_partial (hrd : DoublePrecision F.rd) (hF : IntsExact F.rd) (htop : 2 ^ 31 ≤ F.top) (hm : HeldI w F rf m)
    (hfit : w.Geometry m.length m.resolution m.position) (ht : m.timestamp < 2 ^ 32 * 10 ^ 9) (sx : m.startIndex.x < 2 ^ 16)
    (sy : m.startIndex.y < 2 ^ 16) {ls : String} (hls : m.exists ls = true) (ld : String) (h0 : 0 ≤ radius)
    (htr : |F.rd (radius / m.resolution)| < F.top) (hn : ⌈F.rd (radius / m.resolution)⌉.toNat < 2 ^ 32 - 2) (hpop : PopOk pop)
    (hh : HypOk hyp ⌈F.rd (radius / m.resolution)⌉.toNat) (ho : UsedU F rf hyp computer m.resolution o) {n : Nat}
    (hnr : (n : K) * m.resolution ≤ radius * (1 - 1 / 2 ^ 53)) {thr : Cost}
    (hthr : ∀ i q, sqDist i q ≤ n * n → thr ≤ inflationCostRd rf hyp computer m.resolution i q) {ρ : K} (h4 : 4 ≤ n)
    (hρ : 2 * ρ ^ 2 ≤ (((n : K) - 4) * m.resolution) ^ 2) (sqrt : K → K) :
    ∃ msg, m.toMessage = .ok msg ∧ ∀ map : CostMap K, Receives w F rf map →
      (∀ p, m.Clearly F.rd p → ∃ r,
        receivedI F.rd msg (rebasedI F.rd (inflatedI F rf pop hyp ls ld radius computer o fun w => placeClearI F.rd w ld thr p)) map = .ok r ∧
          (r = true → m.RobotFitsI F.rd ls ρ p)) ∧
      ∀ a b, m.Clearly F.rd a → m.Clearly F.rd b → ∃ r,
        (∀ fuel, 1 ≤ fuel →
          receivedI F.rd msg (rebasedI F.rd (inflatedI F rf pop hyp ls ld radius computer o fun w => wayClearI F.rd sqrt fuel w ld thr a b)) map = .ok r) ∧
          (r = true → ∀ p, NearSegment (m.resolution / 32) a b p → m.Clearly F.rd p → m.RobotFitsI F.rd ls ρ p) := by
  have iw := held_inWorld hrd hF htop hm
  have hl := (iw.coherent.mem_iff ls).mpr hls
  obtain ⟨msg, e, h⟩ := topic_machine hrd hF htop hm hfit ht sx sy
  refine ⟨msg, e, fun map hmap => ?_⟩
  obtain ⟨c, e0, ch, cp⟩ := h map hmap
  have cc := (held_inWorld hrd hF htop ch).coherent
  have ce : c.exists ls = true := (cc.mem_iff ls).mp ((cp.layers ls).mpr (.inl hl))
  have cl := (same_machine (rd := F.rd) cp.geometry).2.2.2.2.2
  have hback : ∀ {p}, c.RobotFitsI F.rd ls ρ p → m.RobotFitsI F.rd ls ρ p := fun h x hx hxc => by
    rw [← (C112_lookup cp F.rd x).2 ls hl]; exact h x hx (cl x hxc)
  have cr := cp.geometry.resolution
  have hfit' : w.Geometry c.length c.resolution c.position := by rw [cp.geometry.length, cr, cp.geometry.position]; exact hfit
  rw [← cr] at htr hn hh ho hnr hthr hρ ⊢
  obtain ⟨n', st', e1, e2, hp, hw⟩ := C116_moved_machine hrd hF htop ch hfit' ce ld h0 htr hn hpop hh ho [] hnr hthr h4 hρ sqrt
  refine ⟨fun p hpc => ?_, fun a b ha hb => ?_⟩
  · obtain ⟨r, hr, hrt⟩ := hp p (cl p hpc)
    exact ⟨r, by unfold receivedI rebasedI inflatedI; rw [e0]; dsimp only; rw [e1]; dsimp only; rw [e2]; exact hr, fun h => hback (hrt h)⟩
  · obtain ⟨r, hr, hrt⟩ := hw a b (cl a ha) (cl b hb)
    exact ⟨r, fun fuel hf => by unfold receivedI rebasedI inflatedI; rw [e0]; dsimp only; rw [e1]; dsimp only; rw [e2]; exact hr fuel hf,
      fun h p hp hpc => hback (hrt h p hp (cl p hpc))⟩

end

open Demo in
/-- The copy cannot be left out of C123: the corridor's buffer starts at cell (3, 0), and the robot of one metre at (-2, 0), a cell from the obstacle, is found clear. -/
theorem C123_false_direct : corridor.Geo ∧ corridor.Coherent ∧
    (corridor.toMessage.bind fun msg => received msg (inflated pop hyp "s" "t" 1 (fun _ => 253) Inflater.new fun w => placeClear w "t" 253 ⟨-2, 0⟩)
      (CostMap.new [])) = .ok true ∧
    (corridor.toMessage.bind fun msg => received msg (rebased (inflated pop hyp "s" "t" 1 (fun _ => 253) Inflater.new fun w =>
      placeClear w "t" 253 ⟨-2, 0⟩)) (CostMap.new [])) = .ok false ∧
    ¬ corridor.RobotFits "s" 1 ⟨-2, 0⟩ := by
  refine ⟨corridor_geo, corridor_coherent, by decide +kernel, by decide +kernel, fun h => ?_⟩
  exact h ⟨-1, 0⟩ (by unfold UnderRobot; norm_num) (by decide +kernel)

open Demo in
/-- The corridor whose buffer starts at cell (3, 0) is published; the subscriber's map is another one. The robot at (-2, 0) does not fit and is not found clear,
nor is the way from (-3, 0) to (2, 0). -/
example : ∃ msg, corridor.toMessage = .ok msg ∧
    received msg (rebased (inflated pop hyp "s" "t" 4 (fun _ => 253) Inflater.new fun w => placeClear w "t" 253 ⟨-2, 0⟩)) pillar = .ok false ∧
    received msg (rebased (inflated pop hyp "s" "t" 4 (fun _ => 253) Inflater.new fun w => wayClear (fun v => |v.x| + |v.y|) w "t" 253 ⟨-3, 0⟩ ⟨2, 0⟩))
      pillar = .ok false := by
  have hn : radiusInCells 4 corridor.resolution = 4 := by decide +kernel
  obtain ⟨msg, e, h⟩ := C123_fits_partial (radius := 4) (computer := fun _ => 253) (thr := 253) (ρ := 7 / 10) (fun v => |v.x| + |v.y|) corridor_geo
    corridor_coherent (by decide +kernel) (by decide +kernel) (by decide +kernel) (by decide +kernel) (by decide +kernel) (ls := "s")
    (by decide +kernel) "t" (by rw [hn]; norm_num) pop_ok (hyp_ok _) .new (fun _ _ => UInt8.le_refl _) (by rw [hn]; norm_num)
    (by rw [hn, show corridor.resolution = 1 by decide +kernel]; norm_num)
  obtain ⟨hp, hw⟩ := h pillar pillar_coherent
  refine ⟨msg, e, ?_, ?_⟩
  · obtain ⟨r, hr, h⟩ := hp ⟨-2, 0⟩ (by decide +kernel)
    cases r
    · exact hr
    · exact absurd (show corridor.atPosition "s" ⟨-14 / 10, 0⟩ = .ok LETHAL_OBSTACLE by decide +kernel) (h rfl _ (by unfold UnderRobot; norm_num))
  · obtain ⟨r, hr, h⟩ := hw ⟨-3, 0⟩ ⟨2, 0⟩ (by decide +kernel) (by decide +kernel)
    cases r
    · exact hr
    · exact absurd (show corridor.atPosition "s" ⟨-1, 0⟩ = .ok LETHAL_OBSTACLE by decide +kernel)
        (h rfl ⟨-1, 0⟩ ⟨2 / 5, by norm_num, by norm_num, by norm_num⟩ _ (by unfold UnderRobot; norm_num))

open Demo in
/-- A free place: the robot of one cell fits at (3, 0) of the corridor, and the subscriber says so. -/
example : ∃ msg, corridor.toMessage = .ok msg ∧
    received msg (rebased (inflated pop hyp "s" "t" 1 (fun _ => 253) Inflater.new fun w => placeClear w "t" 253 ⟨3, 0⟩)) pillar = .ok true := by
  have h1 : radiusInCells 1 corridor.resolution = 1 := by decide +kernel
  obtain ⟨msg, e, h⟩ := C123_complete_partial (radius := 1) (computer := fun _ => 253) corridor_geo corridor_coherent (by decide +kernel)
    (by decide +kernel) (by decide +kernel) (by decide +kernel) (by decide +kernel) (ls := "s") (by decide +kernel) "t"
    (by rw [h1]; norm_num) pop_ok (hyp_ok _) .new 253
  refine ⟨msg, e, h pillar pillar_coherent ⟨3, 0⟩ 0 (by decide +kernel) (by decide) ?_⟩
  rw [h1, show corridor.resolution = 1 from by decide +kernel]
  intro x hx hlet
  obtain ⟨i, c, g1, g2, g3, g4⟩ := lethal_centre corridor_geo hlet
  have hi : i = ⟨8, 0⟩ := corridor_lethal ⟨(by by_contra h; rw [getPosition_none h] at g1; cases g1), g2⟩
  have hc : corridor.getPosition ⟨8, 0⟩ = some ⟨-1, 0⟩ := by decide +kernel
  rw [hi, hc] at g1
  cases g1
  rw [show corridor.resolution = 1 from by decide +kernel] at g3
  unfold UnderRobot at hx
  simp only at hx g3
  have e1 := abs_le.mp (abs_le_of_sq_le_sq (show (x.x - 3) ^ 2 ≤ 2 ^ 2 by norm_num at hx ⊢; nlinarith [sq_nonneg (x.y - 0)]) (by norm_num))
  have e2 := abs_le.mp g3
  linarith [e1.1, e2.1]

open Demo in
/-- On the machine: the map of quarters that was moved, with an obstacle at (1, 7/8), is published to a subscriber that holds the map of quarters. -/
example : ∃ msg, quarterMoved.toMessage = .ok msg ∧
    receivedI toDouble msg (rebasedI toDouble (inflatedI binary64 toFloat pop (fun i j => toFloat (hypot i j)) "a" "t" (14 / 10) (fun _ => 253) Inflater.new
      fun w => placeClearI toDouble w "t" 253 ⟨9 / 10, 85 / 100⟩)) quarterMap = .ok false := by
  have hn : ⌈binary64.rd (14 / 10 / quarterMoved.resolution)⌉.toNat = 6 := by decide +kernel
  obtain ⟨msg, h1, h2⟩ := C123_fits_machine_partial (F := binary64) (rf := toFloat) (radius := 14 / 10) (computer := fun _ => 253) (thr := 253)
    (n := 5) (ρ := 1 / 8) (pop := pop) (hyp := fun i j => toFloat (hypot i j)) (o := Inflater.new) toDouble_precision toDouble_ints top64 quarterMoved_held
    ⟨by decide +kernel, by decide +kernel, by decide +kernel, by decide +kernel, by decide +kernel, by unfold PointIn; decide +kernel⟩
    (by decide +kernel) (by decide +kernel) (by decide +kernel) (ls := "a") (by decide +kernel) "t" (by norm_num) (by decide +kernel)
    (by rw [hn]; norm_num) pop_ok
    (by rw [hn]; exact (C91_hypot hypot_ok _).2 (by norm_num)) .new (by decide +kernel) (fun _ _ _ => UInt8.le_refl _) (by norm_num)
    (by decide +kernel) (fun x => x)
  have cl : ∀ x y : ℚ, (quarterMoved.isInsideRd toDouble ⟨x, y⟩ = true ∧
      quarterMoved.position.x - quarterMoved.length.x / 2 + quarterMoved.tolX ≤ x ∧
      quarterMoved.position.y - quarterMoved.length.y / 2 + quarterMoved.tolY ≤ y) → quarterMoved.Clearly binary64.rd ⟨x, y⟩ :=
    fun x y h => ⟨h.1, h.2.1, h.2.2⟩
  refine ⟨msg, h1, ?_⟩
  obtain ⟨r, hr, h⟩ := (h2 quarterMap (.inr quarterMap_held)).1 ⟨9 / 10, 85 / 100⟩ (cl _ _ (by decide +kernel))
  cases r
  · exact hr
  · exact absurd (show quarterMoved.atPositionI toDouble "a" ⟨1, 7 / 8⟩ = .ok LETHAL_OBSTACLE by decide +kernel)
      (h rfl _ (by unfold UnderRobot; norm_num) (cl _ _ (by decide +kernel)))

end CostMapModel

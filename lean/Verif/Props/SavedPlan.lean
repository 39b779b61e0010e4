import Verif.Model.SavedPlan
import Verif.Props.Bundle
import Verif.Props.Rebase
import Verif.Props.PlaceCheck
import Verif.Props.Window
import Verif.Props.MachineBundle
import Verif.Props.MachinePlace
import Verif.Props.MachineRebase

/-! # C121: planning with a map that another process saved -/

set_option linter.unusedSectionVars false

namespace CostMapModel
open Inflation CostMap

/-- A cost that is lethal after saving and loading was lethal before. -/
theorem reloaded_lethal {c : Cost} (h : reloaded c = LETHAL_OBSTACLE) : c = LETHAL_OBSTACLE := by
  exact forall_cost (P := fun c => reloaded c = LETHAL_OBSTACLE → c = LETHAL_OBSTACLE) (by decide +kernel) c h

section
variable {K : Type} [Field K] [LinearOrder K] [IsStrictOrderedRing K] [FloorRing K]
variable {cv : Cv} {rf txt : K → K} {pop : Pop K} {hyp : Nat → Nat → K} {computer : K → Cost} {radius : K} {m : CostMap K} {o : Inflater K}

/-- What is loaded after saving the copy: a map that was not moved and reads like the map, up to the rounding of the costs. -/
theorem saved_spec (hcv : cv.GrayOk) (hrf : Close24 rf) (hg : m.Geo) (hc : m.Coherent) (hx : m.size.x < 2 ^ 23) (hy : m.size.y < 2 ^ 23)
    (hd : m.position.y = m.position.x) (hp : txt m.position.x = m.position.x) (ht : 0 < txt m.resolution)
    (hr : rf (txt m.resolution) = m.resolution) (files : Files K) :
    ∃ files' s, saveCopy txt m files = .ok files' ∧ (∀ rest, loaded cv rf files' rest = rest s) ∧ s.Geo ∧ s.Coherent ∧
      s.startIndex = ⟨0, 0⟩ ∧ s.resolution = m.resolution ∧ (∀ l, m.exists l = true → s.exists l = true) ∧
      (∀ q, s.isInside q = m.isInside q) ∧ ∀ l q c, m.exists l = true → m.atPosition l q = .ok c → s.atPosition l q = .ok (reloaded c) := by
  obtain ⟨n, e, ng, nc, ns, nz, nl, nr, np, nx, ni, nat⟩ := C115_same hg hc
  obtain ⟨files', h1, h2⟩ := bundle_run (txt := txt) hcv hrf ng nc (by rw [nr]; exact ht) (by rw [nz]; exact hx) (by rw [nz]; exact hy) files
  obtain ⟨s, a1, ac, -, -, -, a6, a7, a8, a9, a10, al, -, a⟩ := h2 _ noLayers_new
  have sg : SameGeometry n s := by
    refine ⟨?_, by rw [a7, nr, hr], ?_, a8, by rw [a10, ns]; rfl⟩
    · rw [a9, a7, nr, hr]; exact Vec.ext (by rw [ng.len_x, nr]) (by rw [ng.len_y, nr])
    · rw [a6, np]; exact Vec.ext hp (by rw [hd]; exact hp)
  have hidx : ∀ q, s.getIndex q = n.getIndex q := getIndex_congr sg
  refine ⟨files', s, ?_, fun rest => ?_, sg.geo ng, ac, by rw [sg.startIndex, ns], by rw [sg.resolution, nr], fun l hl => ?_, fun q => ?_,
    fun l q c hl h => ?_⟩
  · unfold saveCopy; rw [e]; exact h1
  · unfold loaded; rw [a1]
  · rw [← nx] at hl
    exact (ac.mem_iff l).mp (al.mem_iff.mpr ((nc.mem_iff l).mpr hl))
  · rw [← ni, ← getIndex_snd, hidx, getIndex_snd]
  · rw [← nat l q hl] at h
    unfold CostMap.atPosition at h ⊢
    rw [hidx]
    cases hb : (n.getIndex q).2 with
    | false => simp [hb] at h
    | true =>
      simp only [hb, if_true] at h ⊢
      exact a _ _ _ h

/-- C121. A program saves a copy of its map, whether the map was moved or not; its centre lies on the diagonal. Another process loads it, inflates it
and looks at one cost: there is an answer at every position inside the map, and if it is "clear", the robot touches no obstacle of the map that was saved. -/
theorem C121_fits (hcv : cv.GrayOk) (hrf : Close24 rf) (hg : m.Geo) (hc : m.Coherent) (hx : m.size.x < 2 ^ 23) (hy : m.size.y < 2 ^ 23)
    (hd : m.position.y = m.position.x) (hp : txt m.position.x = m.position.x) (ht : 0 < txt m.resolution)
    (hr : rf (txt m.resolution) = m.resolution) (files : Files K) {ls : String} (hls : m.exists ls = true) (ld : String)
    (hn : radiusInCells radius m.resolution < 2 ^ 32 - 1) (hpop : PopOk pop)
    (hh : HypOk hyp (radiusInCells radius m.resolution)) (ho : Used hyp computer m.resolution o) {thr : Cost}
    (hthr : ∀ d, d ≤ m.resolution * (radiusInCells radius m.resolution : K) → thr ≤ computer d) {ρ : K}
    (h1 : 1 ≤ radiusInCells radius m.resolution) (hρ : 2 * ρ ^ 2 ≤ (((radiusInCells radius m.resolution : K) - 1) * m.resolution) ^ 2) :
    ∃ files', saveCopy txt m files = .ok files' ∧ ∀ p, m.isInside p = true →
      ∃ r, loaded cv rf files' (inflated pop hyp ls ld radius computer o fun w => placeClear w ld thr p) = .ok r ∧
        (r = true → m.RobotFits ls ρ p) := by
  obtain ⟨files', s, hs, hl, sg, sc, s0, sr, se, si, sat⟩ := saved_spec hcv hrf hg hc hx hy hd hp ht hr files
  rw [← sr] at hn hh ho hthr h1 hρ
  obtain ⟨st', e, h⟩ := C116_fits sg sc s0 (se _ hls) ld hn hpop hh ho [] hthr h1 hρ
  refine ⟨files', hs, fun p hp => ?_⟩
  obtain ⟨r, hr, hrt⟩ := h p (by rw [si, hp])
  refine ⟨r, by rw [hl]; unfold inflated; rw [e]; exact hr, fun h x hx hlet => hrt h x hx ?_⟩
  rw [sat _ _ _ hls hlet, reloaded_spec.2.2.1]

/-- C121, the other way round: where the cost stays below the threshold even if it grows by one, and a robot with a margin of a cell fits, the answer is
"clear". -/
theorem C121_complete (hcv : cv.GrayOk) (hrf : Close24 rf) (hg : m.Geo) (hc : m.Coherent) (hx : m.size.x < 2 ^ 23) (hy : m.size.y < 2 ^ 23)
    (hd : m.position.y = m.position.x) (hp : txt m.position.x = m.position.x) (ht : 0 < txt m.resolution)
    (hr : rf (txt m.resolution) = m.resolution) (files : Files K) {ls : String} (hls : m.exists ls = true) (ld : String)
    (hn : radiusInCells radius m.resolution < 2 ^ 32 - 1) (hpop : PopOk pop)
    (hh : HypOk hyp (radiusInCells radius m.resolution)) (ho : Used hyp computer m.resolution o) (thr : Cost) :
    ∃ files', saveCopy txt m files = .ok files' ∧ ∀ p v, m.atPosition ls p = .ok v → v.toNat + 1 < thr.toNat →
      m.RobotFits ls (((radiusInCells radius m.resolution : K) + 1) * m.resolution) p →
        loaded cv rf files' (inflated pop hyp ls ld radius computer o fun w => placeClear w ld thr p) = .ok true := by
  obtain ⟨files', s, hs, hl, sg, sc, s0, sr, se, si, sat⟩ := saved_spec hcv hrf hg hc hx hy hd hp ht hr files
  rw [← sr] at hn hh ho ⊢
  obtain ⟨st', e, h⟩ := C116_complete sg sc s0 (se _ hls) ld hn hpop hh ho [] thr
  refine ⟨files', hs, fun p v hv hlt hfit => ?_⟩
  rw [hl]
  unfold inflated
  rw [e]
  refine h p (reloaded v) (sat _ _ _ hls hv) ?_ fun x hx hlet => ?_
  · have := abs_le.mp (reloaded_spec.2.2.2.2.2.2 v)
    rw [UInt8.lt_iff_toNat_lt]
    omega
  · have hxi : m.isInside x = true := by
      rw [← si]
      by_contra h'
      rw [atPosition_outside (by simpa using h')] at hlet
      cases hlet
    obtain ⟨c, hcx⟩ : ∃ c, m.atPosition ls x = .ok c := by
      obtain ⟨c, h⟩ := hc.at_ok hls (getIndex_in hg hxi)
      exact ⟨c, by simp only [CostMap.atPosition, getIndex_snd, hxi, if_true]; exact h⟩
    rw [sat _ _ _ hls hcx] at hlet
    exact hfit x hx (by rw [hcx, reloaded_lethal (Res.ok.inj hlet)])

/-- C121 for a straight way. -/
theorem C121_way (norm : Vec K → K) (hcv : cv.GrayOk) (hrf : Close24 rf) (hg : m.Geo) (hc : m.Coherent) (hx : m.size.x < 2 ^ 23)
    (hy : m.size.y < 2 ^ 23) (hd : m.position.y = m.position.x) (hp : txt m.position.x = m.position.x) (ht : 0 < txt m.resolution)
    (hr : rf (txt m.resolution) = m.resolution) (files : Files K) {ls : String} (hls : m.exists ls = true) (ld : String)
    (hn : radiusInCells radius m.resolution < 2 ^ 32 - 1) (hpop : PopOk pop)
    (hh : HypOk hyp (radiusInCells radius m.resolution)) (ho : Used hyp computer m.resolution o) {thr : Cost}
    (hthr : ∀ d, d ≤ m.resolution * (radiusInCells radius m.resolution : K) → thr ≤ computer d) {ρ : K}
    (h1 : 3 ≤ radiusInCells radius m.resolution) (hρ : 2 * ρ ^ 2 ≤ (((radiusInCells radius m.resolution : K) - 3) * m.resolution) ^ 2) :
    ∃ files', saveCopy txt m files = .ok files' ∧ ∀ a b, m.isInside a = true → m.isInside b = true →
      ∃ r, loaded cv rf files' (inflated pop hyp ls ld radius computer o fun w => wayClear norm w ld thr a b) = .ok r ∧
        (r = true → ∀ p, OnWay a b p → m.RobotFits ls ρ p) := by
  obtain ⟨files', s, hs, hl, sg, sc, s0, sr, se, si, sat⟩ := saved_spec hcv hrf hg hc hx hy hd hp ht hr files
  rw [← sr] at hn hh ho hthr h1 hρ
  obtain ⟨st', e, h⟩ := C116_way norm sg sc s0 (se _ hls) ld hn hpop hh ho [] hthr h1 hρ
  refine ⟨files', hs, fun a b ha hb => ?_⟩
  obtain ⟨r, hr, hrt⟩ := h a b (by rw [si, ha]) (by rw [si, hb])
  refine ⟨r, by rw [hl]; unfold inflated; rw [e]; exact hr, fun h p hp x hx hlet => hrt h p hp x hx ?_⟩
  rw [sat _ _ _ hls hlet, reloaded_spec.2.2.1]

end

section
variable {K : Type} [Field K] [LinearOrder K] [IsStrictOrderedRing K] [FloorRing K]
variable {w : World K} {F : Fmt K} {cv : Cv} {rf txt : K → K} {pop : Pop K} {hyp : Nat → Nat → K} {computer : K → Cost} {radius : K} {m : CostMap K}
  {o : Inflater K}

/-- What is loaded after saving the copy, on the machine, with its geometry. -/
theorem saved_machine_geo (hcv : cv.GrayOk) (hrd : DoublePrecision F.rd) (hF : IntsExact F.rd) (htop : 2 ^ 31 ≤ F.top) (hrf : Close24 rf)
    (hi : ∀ n : Nat, n < 2 ^ 23 → rf n = n) (hm : HeldI w F rf m) (hfit : w.Geometry m.length m.resolution m.position) (hs : w.Saves rf txt m)
    (hd : m.position.y = m.position.x) (hp : txt m.position.x = m.position.x) (hr : rf (txt m.resolution) = m.resolution) (files : Files K) :
    ∃ files' s, (s.size = m.size ∧ s.length = m.length ∧ s.position = m.position) ∧ saveCopyI F.rd txt m files = .ok files' ∧ (∀ rest, loadedI F.rd rf cv files' rest = rest s) ∧ HeldI w F rf s ∧
      s.startIndex = ⟨0, 0⟩ ∧ s.resolution = m.resolution ∧ (∀ l, m.exists l = true → s.exists l = true) ∧
      (∀ q, m.Clearly F.rd q → s.Clearly F.rd q) ∧
      ∀ l q c, m.exists l = true → m.Clearly F.rd q → m.atPositionI F.rd l q = .ok c → s.atPositionI F.rd l q = .ok (reloaded c) := by
  obtain ⟨n, e, nh, ns, nz, nl, nr, np, nx, nc, nat⟩ := C115_same_machine hrd hF htop hm hfit
  obtain ⟨files', s, h1, h2, h3, -, h5, -, h7, h8, h9, h10, h11⟩ := bundleI_run hrd hF htop hrf hi hcv nh
    (txt := txt) ⟨by rw [nr]; exact hs.cell, by rw [nr]; exact hs.text, by rw [nr, nz]; exact hs.high_x, by rw [nr, nz]; exact hs.high_y,
      by rw [np]; exact hs.centre⟩ files
  have g := (held_inWorld hrd hF htop nh).geo
  have g' := (held_inWorld hrd hF htop h3).geo
  have er : s.resolution = n.resolution := by rw [h8, nr, hr]
  have sg : SameGeometry n s := by
    refine ⟨?_, er, ?_, h7, by rw [h5, ns]; rfl⟩
    · exact Vec.ext (by rw [g'.len_x, g.len_x, h7, er]) (by rw [g'.len_y, g.len_y, h7, er])
    · rw [h9, np]; exact Vec.ext hp (by rw [hd]; exact hp)
  have hidx : ∀ q, s.getIndexI F.rd q = n.getIndexI F.rd q := fun q => by
    unfold getIndexI; rw [sg.length, sg.position, sg.resolution, sg.size, sg.startIndex]
  obtain ⟨-, -, -, -, -, cl⟩ := same_machine (rd := F.rd) sg
  refine ⟨files', s, ⟨sg.size.trans nz, sg.length.trans nl, sg.position.trans np⟩, ?_, fun rest => ?_, h3, by rw [sg.startIndex, ns], by rw [er, nr], fun l hl => ?_, fun q hq => cl _ (nc _ hq),
    fun l q c hl hq h => ?_⟩
  · unfold saveCopyI; rw [e]; exact h1
  · unfold loadedI; rw [h2]
  · rw [← nx] at hl
    exact ((held_inWorld hrd hF htop h3).coherent.mem_iff l).mp
      (h10.mem_iff.mpr (((held_inWorld hrd hF htop nh).coherent.mem_iff l).mpr hl))
  · rw [← nat l q hl hq] at h
    unfold atPositionI at h ⊢
    rw [hidx]
    revert h
    cases n.getIndexI F.rd q with
    | none => intro h; cases h
    | some t =>
      obtain ⟨i, b⟩ := t
      cases b
      · intro h; cases h
      · exact h11 l i c

/-- What is loaded after saving the copy, on the machine. -/
theorem saved_machine (hcv : cv.GrayOk) (hrd : DoublePrecision F.rd) (hF : IntsExact F.rd) (htop : 2 ^ 31 ≤ F.top) (hrf : Close24 rf)
    (hi : ∀ n : Nat, n < 2 ^ 23 → rf n = n) (hm : HeldI w F rf m) (hfit : w.Geometry m.length m.resolution m.position) (hs : w.Saves rf txt m)
    (hd : m.position.y = m.position.x) (hp : txt m.position.x = m.position.x) (hr : rf (txt m.resolution) = m.resolution) (files : Files K) :
    ∃ files' s, saveCopyI F.rd txt m files = .ok files' ∧ (∀ rest, loadedI F.rd rf cv files' rest = rest s) ∧ HeldI w F rf s ∧
      s.startIndex = ⟨0, 0⟩ ∧ s.resolution = m.resolution ∧ (∀ l, m.exists l = true → s.exists l = true) ∧
      (∀ q, m.Clearly F.rd q → s.Clearly F.rd q) ∧
      ∀ l q c, m.exists l = true → m.Clearly F.rd q → m.atPositionI F.rd l q = .ok c → s.atPositionI F.rd l q = .ok (reloaded c) := by
  obtain ⟨files', s, -, h⟩ := saved_machine_geo hcv hrd hF htop hrf hi hm hfit hs hd hp hr files
  exact ⟨files', s, h⟩

/-- C121 on the machine, for every map that calls can reach. -/
theorem C121_fits_machine (hcv : cv.GrayOk) (hrd : DoublePrecision F.rd) (hF : IntsExact F.rd) (htop : 2 ^ 31 ≤ F.top) (hrf : Close24 rf)
    (hi : ∀ n : Nat, n < 2 ^ 23 → rf n = n) (hm : HeldI w F rf m) (hfit : w.Geometry m.length m.resolution m.position) (hs : w.Saves rf txt m)
    (hd : m.position.y = m.position.x) (hp : txt m.position.x = m.position.x) (hr : rf (txt m.resolution) = m.resolution) (files : Files K)
    {ls : String} (hls : m.exists ls = true) (ld : String) (h0 : 0 ≤ radius)
    (htr : |F.rd (radius / m.resolution)| < F.top) (hn : ⌈F.rd (radius / m.resolution)⌉.toNat < 2 ^ 32 - 2) (hpop : PopOk pop)
    (hh : HypOk hyp ⌈F.rd (radius / m.resolution)⌉.toNat) (ho : UsedU F rf hyp computer m.resolution o) {n : Nat}
    (hnr : (n : K) * m.resolution ≤ radius * (1 - 1 / 2 ^ 53)) {thr : Cost}
    (hthr : ∀ i q, sqDist i q ≤ n * n → thr ≤ inflationCostRd rf hyp computer m.resolution i q) {ρ : K} (h2 : 2 ≤ n)
    (hρ : 2 * ρ ^ 2 ≤ (((n : K) - 2) * m.resolution) ^ 2) :
    ∃ files', saveCopyI F.rd txt m files = .ok files' ∧ ∀ p, m.Clearly F.rd p →
      ∃ r, loadedI F.rd rf cv files' (inflatedI F rf pop hyp ls ld radius computer o fun w => placeClearI F.rd w ld thr p) = .ok r ∧
        (r = true → m.RobotFitsI F.rd ls ρ p) := by
  obtain ⟨files', s, es, hl, sh, s0, sr, se, sc, sat⟩ := saved_machine hcv hrd hF htop hrf hi hm hfit hs hd hp hr files
  rw [← sr] at htr hn hh ho hnr hthr hρ
  obtain ⟨st', e, h⟩ := C116_fits_machine hrd hF htop sh s0 (se _ hls) ld h0 htr hn hpop hh ho [] hnr hthr h2 hρ
  refine ⟨files', es, fun p hp => ?_⟩
  obtain ⟨r, hr, hrt⟩ := h p (sc p hp)
  refine ⟨r, by rw [hl]; unfold inflatedI; rw [e]; exact hr, fun h x hx hxc hlet => hrt h x hx (sc x hxc) ?_⟩
  rw [sat _ _ _ hls hxc hlet, reloaded_spec.2.2.1]

/-- C121 on the machine, for a straight way. -/
theorem C121_way_machine (hcv : cv.GrayOk) (hrd : DoublePrecision F.rd) (hF : IntsExact F.rd) (htop : 2 ^ 31 ≤ F.top) (hrf : Close24 rf)
    (hi : ∀ n : Nat, n < 2 ^ 23 → rf n = n) (hm : HeldI w F rf m) (hfit : w.Geometry m.length m.resolution m.position) (hs : w.Saves rf txt m)
    (hd : m.position.y = m.position.x) (hp : txt m.position.x = m.position.x) (hr : rf (txt m.resolution) = m.resolution) (files : Files K)
    {ls : String} (hls : m.exists ls = true) (ld : String) (h0 : 0 ≤ radius)
    (htr : |F.rd (radius / m.resolution)| < F.top) (hn : ⌈F.rd (radius / m.resolution)⌉.toNat < 2 ^ 32 - 2) (hpop : PopOk pop)
    (hh : HypOk hyp ⌈F.rd (radius / m.resolution)⌉.toNat) (ho : UsedU F rf hyp computer m.resolution o) {n : Nat}
    (hnr : (n : K) * m.resolution ≤ radius * (1 - 1 / 2 ^ 53)) {thr : Cost}
    (hthr : ∀ i q, sqDist i q ≤ n * n → thr ≤ inflationCostRd rf hyp computer m.resolution i q) {ρ : K} (h4 : 4 ≤ n)
    (hρ : 2 * ρ ^ 2 ≤ (((n : K) - 4) * m.resolution) ^ 2) (sqrt : K → K) :
    ∃ files', saveCopyI F.rd txt m files = .ok files' ∧ ∀ a b, m.Clearly F.rd a → m.Clearly F.rd b →
      ∃ r, (∀ fuel, 1 ≤ fuel →
          loadedI F.rd rf cv files' (inflatedI F rf pop hyp ls ld radius computer o fun w => wayClearI F.rd sqrt fuel w ld thr a b) = .ok r) ∧
        (r = true → ∀ p, NearSegment (m.resolution / 32) a b p → m.Clearly F.rd p → m.RobotFitsI F.rd ls ρ p) := by
  obtain ⟨files', s, es, hl, sh, s0, sr, se, sc, sat⟩ := saved_machine hcv hrd hF htop hrf hi hm hfit hs hd hp hr files
  rw [← sr] at htr hn hh ho hnr hthr hρ ⊢
  obtain ⟨st', e, h⟩ := C116_way_machine hrd hF htop sh s0 (se _ hls) ld h0 htr hn hpop hh ho [] hnr hthr h4 hρ sqrt
  refine ⟨files', es, fun a b ha hb => ?_⟩
  obtain ⟨r, hr, hrt⟩ := h a b (sc a ha) (sc b hb)
  refine ⟨r, fun fuel hf => by rw [hl]; unfold inflatedI; rw [e]; exact hr fuel hf, fun h p hp hpc x hx hxc hlet =>
    hrt h p hp (sc p hpc) x hx (sc x hxc) ?_⟩
  rw [sat _ _ _ hls hxc hlet, reloaded_spec.2.2.1]

end

open Demo in
/-- C121 is false if the map itself is saved after it was moved (D4): the obstacle at (-1, 0) is somewhere else in the map that is loaded, and the robot that
stands on it is found clear. -/
theorem C121_false_moved : corridor.Geo ∧ corridor.Coherent ∧ corridor.position.y = corridor.position.x ∧
    ((corridor.toImageBundle id ⟨.missing, fun _ => none⟩).bind fun files' =>
      loaded Demo.cv id files' (inflated pop hyp "s" "t" 2 (fun _ => 253) Inflater.new fun w => placeClear w "t" 253 ⟨-1, 0⟩)) = .ok true ∧
    corridor.atPosition "s" ⟨-1, 0⟩ = .ok LETHAL_OBSTACLE := by
  refine ⟨corridor_geo, corridor_coherent, by decide +kernel, by decide +kernel, by decide +kernel⟩

/-- The pillar of C113 around (0, 1). -/
def Demo.pillarUp : CostMap ℚ := { Demo.pillar with position := ⟨0, 1⟩ }

open Demo in
/-- C121 is false for a map whose centre is not on the diagonal (D2), even if it was never moved: the obstacle at (-1, 1) is loaded at (-1, 0), and the robot of
0.6 at (-1, 2) is found clear. -/
theorem C121_false_centre : pillarUp.Geo ∧ pillarUp.Coherent ∧ pillarUp.startIndex = ⟨0, 0⟩ ∧
    ((saveCopy id pillarUp ⟨.missing, fun _ => none⟩).bind fun files' =>
      loaded Demo.cv id files' (inflated pop hyp "s" "t" 1 (fun _ => 253) Inflater.new fun w => placeClear w "t" 253 ⟨-1, 2⟩)) = .ok true ∧
    ¬ pillarUp.RobotFits "s" (6 / 10) ⟨-1, 2⟩ := by
  refine ⟨⟨pillar_geo.res_pos, pillar_geo.size_x, pillar_geo.size_y, pillar_geo.len_x, pillar_geo.len_y, pillar_geo.start⟩,
    ⟨pillar_coherent.nodup, pillar_coherent.mem_iff, pillar_coherent.dims⟩, by decide +kernel, by decide +kernel, fun h => ?_⟩
  exact h ⟨-1, 145 / 100⟩ (by unfold UnderRobot; norm_num) (by decide +kernel)

open Demo in
/-- The corridor whose buffer starts at cell (3, 0) is saved through the copy: the robot at (-2, 0) does not fit, and is not found clear. -/
example : ∃ files', saveCopy id corridor ⟨.missing, fun _ => none⟩ = .ok files' ∧
    loaded Demo.cv id files' (inflated pop hyp "s" "t" 3 (fun _ => 253) Inflater.new fun w => placeClear w "t" 253 ⟨-2, 0⟩) = .ok false := by
  have hn : radiusInCells 3 corridor.resolution = 3 := by decide +kernel
  obtain ⟨files', h1, h2⟩ := C121_fits (radius := 3) (computer := fun _ => 253) (thr := 253) (ρ := 1) (txt := id) Demo.cv_grayOk close24_id corridor_geo
    corridor_coherent (by decide +kernel) (by decide +kernel) (by decide +kernel) rfl (by decide +kernel) rfl ⟨.missing, fun _ => none⟩ (ls := "s")
    (by decide +kernel) "t" (by rw [hn]; norm_num) pop_ok (hyp_ok _) .new (fun _ _ => UInt8.le_refl _) (by rw [hn]; norm_num)
    (by rw [hn, show corridor.resolution = 1 by decide +kernel]; norm_num)
  refine ⟨files', h1, ?_⟩
  obtain ⟨r, hr, h⟩ := h2 ⟨-2, 0⟩ (by decide +kernel)
  cases r
  · exact hr
  · exact absurd (show corridor.atPosition "s" ⟨-1, 0⟩ = .ok LETHAL_OBSTACLE by decide +kernel) (h rfl _ (by unfold UnderRobot; norm_num))

open Demo in
/-- On the machine: the map of quarters that was moved, with an obstacle at (1, 7/8), is saved through the copy. -/
example : ∃ files', saveCopyI toDouble id quarterMoved ⟨.missing, fun _ => none⟩ = .ok files' ∧
    loadedI toDouble toFloat Demo.cv files' (inflatedI binary64 toFloat pop (fun i j => toFloat (hypot i j)) "a" "t" (8 / 10) (fun _ => 253) Inflater.new
      fun w => placeClearI toDouble w "t" 253 ⟨9 / 10, 85 / 100⟩) = .ok false := by
  have hn : ⌈binary64.rd (8 / 10 / quarterMoved.resolution)⌉.toNat = 4 := by decide +kernel
  obtain ⟨files', h1, h2⟩ := C121_fits_machine (F := binary64) (rf := toFloat) (txt := id) (radius := 8 / 10) (computer := fun _ => 253) (thr := 253)
    (n := 3) (ρ := 1 / 8) Demo.cv_grayOk toDouble_precision toDouble_ints top64 close24_toFloat toFloat_cells quarterMoved_held
    ⟨by decide +kernel, by decide +kernel, by decide +kernel, by decide +kernel, by decide +kernel, by unfold PointIn; decide +kernel⟩
    ⟨by decide +kernel, by decide +kernel, by decide +kernel, by decide +kernel, by decide +kernel⟩ (by decide +kernel) rfl (by decide +kernel)
    ⟨.missing, fun _ => none⟩ (ls := "a") (by decide +kernel) "t" (by norm_num) (by decide +kernel) (by rw [hn]; norm_num) pop_ok
    (by rw [hn]; exact (C91_hypot hypot_ok _).2 (by norm_num)) .new (by decide +kernel) (fun _ _ _ => UInt8.le_refl _) (by norm_num)
    (by decide +kernel)
  have cl : ∀ x y : ℚ, (quarterMoved.isInsideRd toDouble ⟨x, y⟩ = true ∧
      quarterMoved.position.x - quarterMoved.length.x / 2 + quarterMoved.tolX ≤ x ∧
      quarterMoved.position.y - quarterMoved.length.y / 2 + quarterMoved.tolY ≤ y) → quarterMoved.Clearly binary64.rd ⟨x, y⟩ :=
    fun x y h => ⟨h.1, h.2.1, h.2.2⟩
  refine ⟨files', h1, ?_⟩
  obtain ⟨r, hr, h⟩ := h2 ⟨9 / 10, 85 / 100⟩ (cl _ _ (by decide +kernel))
  cases r
  · exact hr
  · exact absurd (show quarterMoved.atPositionI toDouble "a" ⟨1, 7 / 8⟩ = .ok LETHAL_OBSTACLE by decide +kernel)
      (h rfl _ (by unfold UnderRobot; norm_num) (cl _ _ (by decide +kernel)))

open Demo in
/-- A free place: the robot of one cell fits at (3, 0) of the corridor, and the process that loaded it says so. -/
example : ∃ files', saveCopy id corridor ⟨.missing, fun _ => none⟩ = .ok files' ∧
    loaded Demo.cv id files' (inflated pop hyp "s" "t" 1 (fun _ => 253) Inflater.new fun w => placeClear w "t" 253 ⟨3, 0⟩) = .ok true := by
  have h1 : radiusInCells 1 corridor.resolution = 1 := by decide +kernel
  obtain ⟨files', e, h⟩ := C121_complete (radius := 1) (computer := fun _ => 253) (txt := id) Demo.cv_grayOk close24_id corridor_geo corridor_coherent
    (by decide +kernel) (by decide +kernel) (by decide +kernel) rfl (by decide +kernel) rfl ⟨.missing, fun _ => none⟩ (ls := "s") (by decide +kernel) "t"
    (by rw [h1]; norm_num) pop_ok (hyp_ok _) .new 253
  refine ⟨files', e, h ⟨3, 0⟩ 0 (by decide +kernel) (by decide) ?_⟩
  rw [h1, show corridor.resolution = 1 from by decide +kernel]
  intro x hx hlet
  obtain ⟨i, c, g1, g2, g3, g4⟩ := lethal_centre corridor_geo hlet
  have hi : i = ⟨8, 0⟩ := corridor_lethal ⟨(by by_contra h; rw [getPosition_none h] at g1; cases g1), g2⟩
  have hc : corridor.getPosition ⟨8, 0⟩ = some ⟨-1, 0⟩ := by decide +kernel
  rw [hi, hc] at g1
  cases g1
  rw [show corridor.resolution = 1 from by decide +kernel] at g3
  unfold UnderRobot at hx
  simp only at hx g3
  have e1 := abs_le.mp (abs_le_of_sq_le_sq (show (x.x - 3) ^ 2 ≤ 2 ^ 2 by norm_num at hx ⊢; nlinarith [sq_nonneg (x.y - 0)]) (by norm_num))
  have e2 := abs_le.mp g3
  linarith [e1.1, e2.1]

end CostMapModel

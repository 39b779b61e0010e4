import Verif.Spec.MachineHistory
import Verif.Lemmas.Safety
import Verif.Props.MachineCostmap2D
import Verif.Props.MachineInflation
import Verif.Props.MachineMerge
import Verif.Props.MachineShapes

/-! # What every call on the machine keeps -/

set_option linter.unusedSectionVars false

namespace CostMapModel
open CostMap Act
variable {K : Type} [Field K] [LinearOrder K] [IsStrictOrderedRing K] [FloorRing K]

namespace InWorld
variable {w : World K} {rd : K → K}

theorem congr {m m' : CostMap K} (h : SameGeometry m m') (hm : InWorld w rd m) (hc : m'.Coherent) : InWorld w rd m' := by
  obtain ⟨-, g, a, c⟩ := hm
  refine ⟨hc, ⟨?_, ?_, ?_, ?_, ?_, ?_⟩, ⟨?_, ?_, ?_, ?_, ?_⟩, ?_⟩
  · rw [h.resolution]; exact g.res_pos
  · rw [h.size]; exact g.size_x
  · rw [h.size]; exact g.size_y
  · rw [h.size, h.length, h.resolution]; exact g.len_x
  · rw [h.size, h.length, h.resolution]; exact g.len_y
  · rw [h.size, h.startIndex]; exact g.start
  · rw [h.size, h.resolution]; exact a.size_x
  · rw [h.size, h.resolution]; exact a.size_y
  · rw [h.resolution]; exact a.cells
  · rw [h.position]; exact a.pos_x
  · rw [h.position]; exact a.pos_y
  · rw [h.resolution]; exact c

theorem stable : Stable (InWorld w rd) where
  shape h hm := hm.congr h.geo (h.coherent hm.coherent)
  info h1 h2 h3 hm := hm.congr h3 (hm.coherent.of_eq h1 h2 h3.size)
  add l a m hm := hm.congr (add_geometry l a m) (add_coherent l a m hm.coherent)

variable {m : CostMap K} (hm : InWorld w rd m)
include hm

theorem cells : w.size ≤ 2 ^ 23 * m.resolution := w.cells.trans (by have := hm.cell; nlinarith)

theorem tame : m.Tame := arena_tame hm.geo hm.arena

theorem small : m.Small := by
  have hr := hm.geo.res_pos
  have hc := hm.cells
  have key : ∀ {n : Int}, ((n : K) + 1) * m.resolution ≤ w.size → n ≤ 2 ^ 29 := by
    intro n h
    have : (n : K) * m.resolution ≤ 2 ^ 29 * m.resolution := by rw [add_mul] at h; linarith
    exact_mod_cast le_of_mul_le_mul_right this hr
  exact ⟨key hm.arena.size_x, key hm.arena.size_y⟩

theorem tame43 : m.Tame43 := by
  have hc := hm.cells
  have hr := hm.geo.res_pos
  have ha := hm.arena
  constructor
  · have := ha.pos_x; have := ha.size_x
    unfold extent; linarith
  · have := ha.pos_y; have := ha.size_y
    unfold extent; linarith

theorem near {p : Vec K} (hp : PointIn w.size p) : m.NearBy p := by
  have hc := hm.cells
  have hr := hm.geo.res_pos
  have hx := hm.arena.pos_x; have hy := hm.arena.pos_y
  have h1 := hp.1; have h2 := hp.2
  constructor
  · have := abs_sub p.x m.position.x; linarith
  · have := abs_sub p.y m.position.y; linarith

theorem fits : m.Fits := ⟨hm.geo.start, hm.small⟩

end InWorld

/-! ## Giving a geometry -/

section
variable {w : World K} {rd : K → K} (hrd : DoublePrecision rd)
include hrd

theorem cells_in {l r B : K} {n : Nat} (hr : 0 < r) (h1 : ((n : K) + 3 / 4) * r ≤ l) (h2 : l + 2 * r ≤ B) (hB : B ≤ 2 ^ 23 * r) :
    (n : Int) + 1 ≤ roundHalfAway (rd (l / r)) ∧ ((roundHalfAway (rd (l / r)) : K) + 1) * r ≤ B := by
  have n0 : (0 : K) ≤ n := Nat.cast_nonneg n
  have q1 : (n : K) + 3 / 4 ≤ l / r := by rw [le_div_iff₀ hr]; exact h1
  have q2 : l / r ≤ 2 ^ 23 := by rw [div_le_iff₀ hr]; linarith
  have q0 : 0 ≤ l / r := by linarith
  have e := hrd (l / r)
  rw [abs_of_nonneg q0, abs_le] at e
  have e' : l / r / 2 ^ 53 ≤ 1 / 4 := by rw [div_le_iff₀ (by positivity)]; linarith
  constructor
  · exact round_gt (by linarith [e.1])
  · have w0 : 0 ≤ rd (l / r) := by linarith [e.1]
    have hle : (roundHalfAway (rd (l / r)) : K) ≤ rd (l / r) + 1 / 2 := by
      unfold roundHalfAway
      rw [if_pos w0]
      exact Int.floor_le _
    have : (roundHalfAway (rd (l / r)) : K) + 1 ≤ l / r + 2 := by linarith [e.2]
    have h3 := mul_le_mul_of_nonneg_right this hr.le
    rw [add_mul (l / r), div_mul_cancel₀ _ hr.ne'] at h3
    linarith

/-- A geometry that fits is taken, whatever the map was. -/
theorem setGeometryI_fits {len : Vec K} {r : K} {p : Vec K} (h : w.Geometry len r p) {m : CostMap K} (hc : m.Coherent) :
    ∃ m', setGeometryI rd len r p m = (.ok (), m') ∧ InWorld w rd m' ∧
      m'.size = ⟨roundHalfAway (rd (len.x / r)), roundHalfAway (rd (len.y / r))⟩ := by
  have hr : 0 < r := w.cell_pos.trans_le h.cell
  have hB : w.size ≤ 2 ^ 23 * r := w.cells.trans (by have := h.cell; nlinarith)
  have lx := h.low_x; have ly := h.low_y; have hx := h.high_x; have hy := h.high_y
  obtain ⟨x1, x2⟩ := cells_in hrd (n := 0) hr (by simpa using lx) hx hB
  obtain ⟨y1, y2⟩ := cells_in hrd (n := 0) hr (by simpa using ly) hy hB
  rw [C79_setGeometry hrd m (by linarith) (by linarith) p]
  have hk := setGeometryRd_coherent hrd len r p m hc
  unfold setGeometryRd at hk ⊢
  rw [if_neg (not_not.2 (by linarith)), if_neg (not_not.2 (by linarith)), if_neg (not_not.2 hr)] at hk ⊢
  have px : 0 < roundHalfAway (rd (len.x / r)) := by omega
  have py : 0 < roundHalfAway (rd (len.y / r)) := by omega
  have hp := h.centre
  refine ⟨_, rfl, ⟨hk, ⟨hr, px, py, rfl, rfl, ⟨le_rfl, px, le_rfl, py⟩⟩, ⟨x2, y2, ?_, ?_, ?_⟩, h.cell⟩, rfl⟩
  · show w.size ≤ 2 ^ 44 * r; linarith
  · show |p.x| ≤ 2 * w.size; have := hp.1; have := abs_nonneg p.x; linarith
  · show |p.y| ≤ 2 * w.size; have := hp.2; have := abs_nonneg p.y; linarith

theorem fromMessageI_safe {msg : CostMapMsg K} (h : w.Geometry ⟨msg.lengthX, msg.lengthY⟩ msg.resolution msg.position)
    (hx : (msg.outerStartIndex.toNat + 3 / 4 : K) * msg.resolution ≤ msg.lengthX)
    (hy : (msg.innerStartIndex.toNat + 3 / 4 : K) * msg.resolution ≤ msg.lengthY) (hd : ∀ a ∈ msg.data, a.Complete)
    {m : CostMap K} (hc : m.Coherent) :
    (fromMessageI rd msg m).1.Defined ∧ InWorld w rd (fromMessageI rd msg m).2 := by
  have hr : 0 < msg.resolution := w.cell_pos.trans_le h.cell
  have hB : w.size ≤ 2 ^ 23 * msg.resolution := w.cells.trans (by have := h.cell; nlinarith)
  obtain ⟨x1, -⟩ := cells_in hrd hr hx h.high_x hB
  obtain ⟨y1, -⟩ := cells_in hrd hr hy h.high_y hB
  obtain ⟨m1, e, h1, hs⟩ := setGeometryI_fits hrd h (m := (m.setTimestamp (stampToNSec msg.stampSec msg.stampNsec)).setFrameId
    msg.frameId) (hc.of_eq rfl rfl rfl)
  unfold fromMessageI
  rw [Act.bind_ok (show Act.modify _ m = (.ok (), _) from rfl), Act.bind_ok e]
  have hsafe : Safe (fun s : CostMap K => InWorld w rd s ∧ s.size = m1.size) (if msg.layers.length ≠ msg.data.length then
      Act.pure false else Act.bind (Act.forEach addFromArray (msg.layers.zip msg.data)) fun _ =>
      Act.bind (Act.modify fun m => (m.setBasicLayers msg.basicLayers).setStartIndex
        ⟨msg.outerStartIndex.toNat, msg.innerStartIndex.toNat⟩) fun _ => Act.pure true) := by
    refine Safe.ite (Safe.pure _) (Safe.bind (Safe.forEach fun p hp => ?_) fun _ =>
      Safe.bind (Safe.modify fun s hs' => ?_) fun _ => Safe.pure _)
    · exact Safe.bind (Safe.lift (toMat_defined (hd p.2 (List.of_mem_zip hp).2))) fun a s hs' =>
        ⟨add_defined _ _ s, InWorld.stable.add _ _ s hs'.1, (add_geometry _ _ s).size.trans hs'.2⟩
    · obtain ⟨⟨c, g, a, ce⟩, e2⟩ := hs'
      refine ⟨⟨c.of_eq rfl rfl rfl, ⟨g.res_pos, g.size_x, g.size_y, g.len_x, g.len_y, ?_⟩, ⟨a.size_x, a.size_y, a.cells, a.pos_x, a.pos_y⟩, ce⟩, e2⟩
      show Idx.In ⟨_, _⟩ s.size
      rw [e2, hs]
      exact ⟨Int.natCast_nonneg _, Int.lt_of_add_one_le x1, Int.natCast_nonneg _, Int.lt_of_add_one_le y1⟩
  have := hsafe m1 ⟨h1, rfl⟩
  exact ⟨this.1, this.2.1⟩

end

/-! ## ROS costmaps -/

section
variable {w : World K} {rd : K → K} (hrd : DoublePrecision rd)
include hrd

theorem fromCostmap2DROSI_safe {c : Costmap2DROS K} (h : w.Costmap c.costmap) {m : CostMap K} (hc : m.Coherent) (l : String) :
    ∃ m', fromCostmap2DROSI rd c l m = (.ok true, m') ∧ InWorld w rd m' := by
  have hr := h.ok.res
  have hB : w.size ≤ 2 ^ 23 * c.costmap.resolution := w.cells.trans (by have := h.cell; nlinarith)
  have hx := h.high_x; have hy := h.high_y; have hp := h.corner
  have n0 : ∀ n : Nat, (0 : K) ≤ n := fun n => Nat.cast_nonneg n
  have cells : ∀ {n : Nat}, ((n : K) + 3) * c.costmap.resolution ≤ w.size → n ≤ 2 ^ 29 := by
    intro n h
    have : ((n : K) + 3) ≤ 2 ^ 23 := le_of_mul_le_mul_right (h.trans hB) hr
    have : (n : K) ≤ 2 ^ 29 := by linarith
    exact_mod_cast this
  have nx := mul_nonneg (n0 c.costmap.sizeX) hr.le
  have ny := mul_nonneg (n0 c.costmap.sizeY) hr.le
  rw [C107_whole_same hrd hr (cells hx) (cells hy)]
  obtain ⟨m', e, hc', g, -, -, -, r1, z1, -, p1, p2, -⟩ := C96_whole_partial hrd h.ok
    ⟨by linarith [hp.1], by linarith [hp.2]⟩ hc l
  have pos : ∀ {n : Nat} {p o : K}, |p - (o + n * m'.resolution / 2)| ≤ Costmap2D.axisTol n o m'.resolution →
      ((n : K) + 3) * c.costmap.resolution ≤ w.size → |o| ≤ w.size → |p| ≤ 2 * w.size := by
    intro n p o h1 h2 h3
    rw [r1] at h1
    unfold Costmap2D.axisTol at h1
    have k := mul_nonneg (n0 n) hr.le
    have e : (|o| + 2 * ((n : K) + 1) * c.costmap.resolution) / 2 ^ 47 ≤ c.costmap.resolution := by
      rw [div_le_iff₀ (by positivity)]; linarith
    obtain ⟨a1, a2⟩ := abs_le.mp h1
    obtain ⟨b1, b2⟩ := abs_le.mp h3
    exact abs_le.mpr ⟨by linarith, by linarith⟩
  refine ⟨m', e, hc', g, ⟨?_, ?_, ?_, pos p1 hx hp.1, pos p2 hy hp.2⟩, r1 ▸ h.cell⟩
  · rw [z1, r1]; push_cast; linarith
  · rw [z1, r1]; push_cast; linarith
  · rw [r1]; linarith

theorem fromCostmapAtRobotI_safe {c : Costmap2DROS K} (h : w.Costmap c.costmap) {geometry : Vec K}
    (hg : ∀ p, c.robot = some p → w.Geometry geometry c.costmap.resolution p) {m : CostMap K} (hc : m.Coherent) (l : String) :
    ∃ b m', fromCostmap2DROSAtRobotPoseI rd c geometry l m = (.ok b, m') ∧
      ((c.robot = none ∧ m' = m) ∨ InWorld w rd m') := by
  cases hrb : c.robot with
  | none =>
    refine ⟨false, m, ?_, .inl ⟨rfl, rfl⟩⟩
    unfold fromCostmap2DROSAtRobotPoseI initAtRobotPoseI
    rw [hrb]
    rfl
  | some rb =>
    have hg := hg rb hrb
    have hr := h.ok.res
    have hB : w.size ≤ 2 ^ 23 * c.costmap.resolution := w.cells.trans (by have := h.cell; nlinarith)
    have hp := h.corner; have hq := hg.centre
    have lx := hg.low_x; have ly := hg.low_y; have gx := hg.high_x; have gy := hg.high_y
    rw [C107_window_same_partial hrd hr ⟨by linarith [hp.1], by linarith [hp.2]⟩
      (fun p hp' => by
        cases hrb.symm.trans hp'
        exact ⟨(abs_sub _ _).trans (by linarith [hp.1, hq.1]), (abs_sub _ _).trans (by linarith [hp.2, hq.2])⟩)
      ⟨abs_le.mpr ⟨by linarith, by linarith⟩, abs_le.mpr ⟨by linarith, by linarith⟩⟩]
    obtain ⟨x1, x2⟩ := cells_in hrd (n := 0) hr (by simpa using lx) gx hB
    obtain ⟨y1, y2⟩ := cells_in hrd (n := 0) hr (by simpa using ly) gy hB
    obtain ⟨nx, ex⟩ := Int.eq_ofNat_of_zero_le (show 0 ≤ roundHalfAway (rd (geometry.x / c.costmap.resolution)) by omega)
    obtain ⟨ny, ey⟩ := Int.eq_ofNat_of_zero_le (show 0 ≤ roundHalfAway (rd (geometry.y / c.costmap.resolution)) by omega)
    obtain ⟨b, m', e, hc', g, -, -, r1, z1, -, p1, p2, -⟩ := C96_window_partial hrd h.ok hrb (by linarith) (by linarith)
      (nx := nx) (ny := ny) (by omega) (by omega) ex ey hc l
    refine ⟨b, m', e, .inr ⟨hc', g, ⟨?_, ?_, ?_, ?_, ?_⟩, r1 ▸ h.cell⟩⟩
    · rw [z1, r1]; rw [ex] at x2; exact x2
    · rw [z1, r1]; rw [ey] at y2; exact y2
    · rw [r1]; linarith
    · rw [r1] at p1
      have e : (|rb.x| + |c.costmap.origin.x| + c.costmap.resolution) / 2 ^ 48 ≤ c.costmap.resolution := by
        rw [div_le_iff₀ (by positivity)]; linarith [hp.1, hq.1]
      obtain ⟨a1, a2⟩ := abs_le.mp p1
      obtain ⟨b1, b2⟩ := abs_le.mp hq.1
      exact abs_le.mpr ⟨by linarith, by linarith⟩
    · rw [r1] at p2
      have e : (|rb.y| + |c.costmap.origin.y| + c.costmap.resolution) / 2 ^ 48 ≤ c.costmap.resolution := by
        rw [div_le_iff₀ (by positivity)]; linarith [hp.2, hq.2]
      obtain ⟨a1, a2⟩ := abs_le.mp p2
      obtain ⟨b1, b2⟩ := abs_le.mp hq.2
      exact abs_le.mpr ⟨by linarith, by linarith⟩

end

/-! ## Images -/

section
variable {w : World K} {rd : K → K}

theorem imageCell_safe' {m0 : CostMap K} (cv : Cv) {img : Image} (hr : img.readable = true) (hx : m0.size.x = img.height)
    (hy : m0.size.y = img.width) (l : String) {i : Idx} (hi : i.In m0.size) :
    Safe (fun s : CostMap K => InWorld w rd s ∧ s.size = m0.size) (imageCell cv img l i) := by
  obtain ⟨a, b, c, d⟩ := hi
  obtain ⟨v, hv⟩ := sample_ok cv hr (i := i) a (hx ▸ b) c (hy ▸ d)
  refine Safe.liftBind (by rw [hv]; simp) fun s hs => ?_
  split
  · exact Safe.pure _
  · rename_i g
    obtain ⟨hg, k, hk, hd⟩ := sample_lt hs
    rw [hd] at hg ⊢
    refine Safe.bind (Safe.lift (by rw [toUChar_gray hk hg]; simp)) fun v s hs => ?_
    have hin : i.In s.size := by rw [hs.2]; exact ⟨a, b, c, d⟩
    exact ⟨setAt_defined hs.1.coherent l hin v, InWorld.stable.keeps (setAt_shape l i v) s hs.1,
      (setAt_shape l i v s).geo.size.trans hs.2⟩

theorem addLayerFromImageI_safe (cv : Cv) (img : Image) (l : String) : Safe (InWorld w rd) (addLayerFromImageI cv img l) := by
  unfold addLayerFromImageI
  split
  · exact Safe.pure _
  rename_i hr
  rw [not_not] at hr
  refine Safe.bind (fun s hs => ⟨add_defined _ _ s, InWorld.stable.add _ _ s hs⟩) fun _ m hm => ?_
  split
  · exact ⟨by simp, hm⟩
  · rename_i hne
    push Not at hne
    have e : forCellsI (imageCell cv img l) m = forCells (imageCell cv img l) m :=
      forCellsI_eq (fun i => stable_fits.imageCell cv img l i) (fun _ _ _ => rfl) hm.fits
    have h : (forCells (imageCell cv img l) m).1.Defined ∧ InWorld w rd (forCells (imageCell cv img l) m).2 := by
      rw [forCells_eq hm.geo.start]
      have := Safe.forEach (P := fun s : CostMap K => InWorld w rd s ∧ s.size = m.size)
        (fun i hi => imageCell_safe' cv hr hne.1 hne.2 l ((mem_cells hm.geo.start).1 hi)) m ⟨hm, rfl⟩
      exact ⟨this.1, this.2.1⟩
    unfold Act.bind
    rw [e]
    revert h
    rcases forCells (imageCell cv img l) m with ⟨r, s⟩
    cases r <;> simp [Act.pure, Res.Defined]

theorem fromImageBundleI_safe (hrd : DoublePrecision rd) (cv : Cv) {rf : K → K} {files : Files K}
    (h : ∀ b, readInfo rf files.yaml = .ok b →
      w.Geometry ⟨rf (b.resolution * rf b.cellsX), rf (b.resolution * rf b.cellsY)⟩ b.resolution b.centre)
    {m : CostMap K} (hc : m.Coherent) :
    (fromImageBundleI rd rf cv files m).1.Defined ∧
      ((fromImageBundleI rd rf cv files m).2 = m ∨ InWorld w rd (fromImageBundleI rd rf cv files m).2) ∧
      ((fromImageBundleI rd rf cv files m).1 = .ok () → InWorld w rd (fromImageBundleI rd rf cv files m).2) := by
  unfold fromImageBundleI
  have hd := readInfo_defined rf files.yaml
  cases hr : readInfo rf files.yaml with
  | ok b =>
    rw [Act.bind_ok (show Act.lift (.ok b) m = (.ok b, m) from rfl)]
    obtain ⟨m1, e, h1, -⟩ := setGeometryI_fits hrd (h b hr) hc
    rw [Act.bind_ok e]
    have := (Safe.bind (Safe.modify (P := InWorld w rd) (f := fun m : CostMap K => (m.setFrameId b.frameId).resetTimestamp)
      fun s hs => InWorld.congr (m := s) ⟨rfl, rfl, rfl, rfl, rfl⟩ hs (hs.coherent.of_eq rfl rfl rfl)) fun _ =>
        Safe.forEach (as := b.layers) fun p _ => (addLayerFromImageI_safe cv (FileImage.toImage (files.images p.2)) p.1).discard) m1 h1
    exact ⟨this.1, .inr this.2, fun _ => this.2⟩
  | thrown e => exact ⟨by simp [Act.bind, Act.lift], .inl rfl, fun h => by simp [Act.bind, Act.lift] at h⟩
  | assertFail => exact ⟨by simp [Act.bind, Act.lift], .inl rfl, fun h => by simp [Act.bind, Act.lift] at h⟩
  | ub => rw [hr] at hd; exact absurd rfl hd.1
  | outOfFuel => rw [hr] at hd; exact absurd rfl hd.2

end

/-! ## Inflation -/

namespace Inflation
variable {P : CostMap K → Prop} {ls ld : String} (h : CostMap.Stable P)
include h

theorem enqueueU_keeps (c src : Idx) : Keeps (fun s : Inflation K => P s.map) (enqueueU ls ld c src) := by
  unfold enqueueU
  refine (Keeps.read _).bind fun _ => Keeps.ite (Keeps.pure _) ?_
  refine (Keeps.read _).bind fun _ => Keeps.get.bind fun _ => Keeps.ite (Keeps.pure _) ?_
  refine (Keeps.read _).bind fun _ => (Keeps.read _).bind fun _ =>
    (onMap_keeps (h.keeps (CostMap.setAt_shape _ _ _))).bind fun _ => ?_
  exact Keeps.modify fun _ h => h

theorem seedU_keeps (c : Idx) : Keeps (fun s : Inflation K => P s.map) (seedU ls ld c) :=
  (Keeps.read _).bind fun _ => Keeps.ite (enqueueU_keeps h _ _) (Keeps.pure _)

theorem visitU_keeps (c src : Idx) : Keeps (fun s : Inflation K => P s.map) (visitU ls ld c src) := by
  unfold visitU
  refine Keeps.get.bind fun _ => (Keeps.ite (enqueueU_keeps h _ _) (Keeps.pure _)).bind fun _ => ?_
  refine (Keeps.ite (enqueueU_keeps h _ _) (Keeps.pure _)).bind fun _ => ?_
  refine (Keeps.ite (enqueueU_keeps h _ _) (Keeps.pure _)).bind fun _ => ?_
  exact Keeps.ite (enqueueU_keeps h _ _) (Keeps.pure _)

theorem spreadU_keeps (pop : Pop K) : ∀ n, Keeps (fun s : Inflation K => P s.map) (spreadU pop ls ld n)
  | 0 => by intro s hs; unfold spreadU; split <;> exact hs
  | n + 1 => by
    intro s hs
    unfold spreadU
    split
    · exact hs
    split
    · exact hs
    · exact Keeps.bind (P := fun s : Inflation K => P s.map) (visitU_keeps h _ _) (fun _ => spreadU_keeps pop n) _ hs

theorem inflateU_keeps (F : Fmt K) (rf : K → K) (pop : Pop K) (hyp : Nat → Nat → K) (radius : Dbl K)
    (computer : K → Cost) : Keeps (fun s : Inflation K => P s.map) (inflateU F rf pop hyp ls ld radius computer) := by
  unfold inflateU
  refine Keeps.bind (Keeps.modify fun _ h => ?_) fun _ => ?_
  · exact h
  refine (Keeps.read _).bind fun _ => (onMap_keeps (h.add _ _)).bind fun _ => ?_
  refine Keeps.bind (fun s hs => ?_) fun _ => (Keeps.forEach (seedU_keeps h) _).bind fun _ =>
    Keeps.get.bind fun _ => spreadU_keeps h pop _
  unfold prepareU
  dsimp only
  split
  · exact hs
  · split
    · split <;> exact hs
    · exact hs

end Inflation

theorem inflateU_defined {w : World K} {F : Fmt K} (hrd : DoublePrecision F.rd) (hF : IntsExact F.rd) (htop : 2 ^ 31 ≤ F.top)
    {rf : K → K} {m : CostMap K} (hm : InWorld w F.rd m) {obj : Inflater K} {pop : Inflation.Pop K} {hyp : Nat → Nat → K}
    {radius : K} {computer : K → Cost} (h0 : 0 ≤ radius) (h1 : radius ≤ w.size) (hpop : PopOk pop)
    (hh : HypOk hyp ⌈F.rd (radius / m.resolution)⌉.toNat) (ho : UsedU F rf hyp computer m.resolution obj) (ls ld : String) :
    (Inflation.inflateU F rf pop hyp ls ld (.fin radius) computer ⟨obj, m, []⟩).1.Defined := by
  have hr := hm.geo.res_pos
  by_cases hls : m.exists ls = true
  · have hx := hm.small.x; have hy := hm.small.y
    have q0 : 0 ≤ radius / m.resolution := div_nonneg h0 hr.le
    have q1 : radius / m.resolution ≤ 2 ^ 23 := by rw [div_le_iff₀ hr]; exact h1.trans hm.cells
    have e := hrd (radius / m.resolution)
    rw [abs_of_nonneg q0, abs_le] at e
    have e' : radius / m.resolution / 2 ^ 53 ≤ 1 := by rw [div_le_iff₀ (by positivity)]; linarith
    have u := rd_nonneg hrd q0
    have v : F.rd (radius / m.resolution) ≤ 2 ^ 24 := by linarith [e.2]
    obtain ⟨st, e, -⟩ := C94_reach_partial (rf := rf) (pop := pop) (hyp := hyp) (computer := computer) hF hrd hm.coherent (by omega) (by omega) hr hls ld h0
      (by rw [abs_of_nonneg u]; linarith)
      (by
        have : ⌈F.rd (radius / m.resolution)⌉ ≤ 2 ^ 24 := Int.ceil_le.2 (by push_cast; linarith)
        omega) hpop hh ho []
    rw [e]; simp
  · have hnone : m.data ls = none := by simpa [CostMap.exists] using hls
    refine bind_defined (by simp [Act.modify]) fun _ s e => ?_
    obtain rfl : (⟨obj, m, []⟩ : Inflation K) = s := congrArg Prod.snd e
    refine bind_defined ?_ fun a s e => ?_
    · simp [Act.read, CostMap.get, hnone]
    · have := congrArg Prod.fst e
      simp [Act.read, CostMap.get, hnone] at this

/-! ## Extending and merging -/

/-- An extended map reaches at most sixteen times as far as the two maps. -/
theorem extendRd_reach {rd : K → K} (hrd : DoublePrecision rd) {m other : CostMap K} (h : m.GeoRd rd) {B : K}
    (hB : B ≤ 2 ^ 39 * m.resolution) (hm : m.Within B m.resolution) (ho : other.Within B m.resolution) :
    |(extendToIncludeRd rd other m).2.position.x| + (((extendToIncludeRd rd other m).2.size.x : K) + 1) * m.resolution ≤ 16 * B ∧
    |(extendToIncludeRd rd other m).2.position.y| + (((extendToIncludeRd rd other m).2.size.y : K) + 1) * m.resolution ≤
      16 * B := by
  have hr := h.res_pos
  rcases ex : extendAxisRd rd m.position.x m.length.x other.position.x other.length.x with ⟨px, lx, bx⟩
  rcases ey : extendAxisRd rd m.position.y m.length.y other.position.y other.length.y with ⟨py, ly, by'⟩
  unfold extendToIncludeRd
  rw [ex, ey]
  dsimp only
  by_cases hbr : (bx || by') = true
  · rw [if_pos hbr]
    obtain ⟨Nx, hNx⟩ : ∃ N, N = roundHalfAway (rd (lx / m.resolution)) := ⟨_, rfl⟩
    obtain ⟨Ny, hNy⟩ : ∃ N, N = roundHalfAway (rd (ly / m.resolution)) := ⟨_, rfl⟩
    obtain ⟨x1, -, -, x5⟩ := extend_axis hrd hr h.size_x h.len_x hB hm.x ho.x ex hNx
    obtain ⟨y1, -, -, y5⟩ := extend_axis hrd hr h.size_y h.len_y hB hm.y ho.y ey hNy
    have e1 : setGeometryRd rd ⟨lx, ly⟩ m.resolution ⟨px, py⟩ m = (.ok (), emptyRd rd m ⟨Nx, Ny⟩ ⟨px, py⟩) := by
      unfold setGeometryRd
      rw [if_neg (not_not.2 x1), if_neg (not_not.2 y1), if_neg (not_not.2 hr), ← hNx, ← hNy]
      rfl
    rw [Act.bind_ok e1, Act.bind_ok (show alignToRd rd m (emptyRd rd m ⟨Nx, Ny⟩ ⟨px, py⟩) = (.ok (), _) from rfl)]
    let P : CostMap K → Prop := fun s =>
      |s.position.x| + ((s.size.x : K) + 1) * m.resolution ≤ 16 * B ∧
      |s.position.y| + ((s.size.y : K) + 1) * m.resolution ≤ 16 * B
    have cg : ∀ {s s' : CostMap K}, SameGeometry s s' → P s → P s' := by
      intro s s' g hs
      simp only [P, g.position, g.size]; exact hs
    have st : Stable P := ⟨fun g => cg g.geo, fun _ _ g => cg g, fun l a s => cg (add_geometry l a s)⟩
    exact ((forCells_keeps fun i => restoreCellRd_keeps (rd := rd) st m i).bind fun _ => Act.Keeps.pure true) _ ⟨x5, y5⟩
  · rw [if_neg hbr]
    have step : ∀ {n : Int} {pos len : K}, 1 ≤ n → len = rd ((n : K) * m.resolution) →
        |pos| + |len| + m.resolution ≤ B → |pos| + ((n : K) + 1) * m.resolution ≤ 16 * B := by
      intro n pos len hn hl hw
      have h1 : (1 : K) ≤ n := by exact_mod_cast hn
      have h2 := rd_lower hrd ((n : K) * m.resolution)
      rw [← hl, abs_of_nonneg (mul_nonneg (by linarith) hr.le)] at h2
      have := abs_nonneg pos; have := abs_nonneg len
      rw [add_mul]
      linarith
    exact ⟨step h.size_x h.len_x hm.x, step h.size_y h.len_y hm.y⟩

/-- Extending in the world. -/
theorem extendI_safe {w : World K} {rd : K → K} (hrd : DoublePrecision rd) {m o : CostMap K} (hm : InWorld w rd m)
    (h : w.Extends m o) :
    ∃ m' k, extendToIncludeI rd o m = (.ok true, m') ∧ extendToIncludeRd rd o m = (.ok true, m') ∧ InWorld w rd m' ∧
      SameMeta m m' ∧ m'.layers = m.layers ∧ m'.resolution = m.resolution ∧ OnGrid (m.resolution / 8) m' m k := by
  have hr := hm.geo.res_pos
  have hc := hm.cells
  obtain ⟨e, -, -⟩ := C79_extendToInclude hrd hm.geo (B := w.size / 16) (by linarith) h.map h.other
  obtain ⟨m', k, e1, g, c, sm, hl, hres, -, -, hk, -⟩ := C77_data_stays hrd hm.geo hm.coherent h.basic (B := w.size / 16)
    (by linarith) h.map h.other
  obtain ⟨bx, by'⟩ := extendRd_reach hrd hm.geo (B := w.size / 16) (by linarith) h.map h.other
  rw [e1] at bx by'
  have b8 : w.size / 16 / 2 ^ 45 ≤ m.resolution / 8 := by
    rw [div_le_iff₀ (by positivity)]; nlinarith
  have sx : (1 : K) ≤ m'.size.x := by exact_mod_cast g.size_x
  have sy : (1 : K) ≤ m'.size.y := by exact_mod_cast g.size_y
  have p1 := abs_nonneg m'.position.x
  have p2 := abs_nonneg m'.position.y
  dsimp only at bx by'
  refine ⟨m', k, e.trans e1, e1, ⟨c, g, ⟨?_, ?_, ?_, ?_, ?_⟩, ?_⟩, sm, hl, hres, ⟨hk.res, hk.x.trans b8, hk.y.trans b8⟩⟩
  · rw [hres]; linarith
  · rw [hres]; linarith
  · rw [hres]; exact hm.arena.cells
  · have : 0 ≤ ((m'.size.x : K) + 1) * m.resolution := by positivity
    have : 0 ≤ w.size := by linarith
    linarith
  · have : 0 ≤ ((m'.size.y : K) + 1) * m.resolution := by positivity
    have : 0 ≤ w.size := by linarith
    linarith
  · rw [hres]; exact hm.cell

/-- Merging in the world, without extension. -/
theorem mergeI_safe {w : World K} {rd : K → K} (hrd : DoublePrecision rd) {m o : CostMap K} (hm : InWorld w rd m)
    (hg : o.GeoRd rd) (hc : o.Coherent) (ht : o.Tame43) (hs : o.Small) {k : Idx} (hk : OnGrid (m.resolution / 4) m o k)
    (overwrite all : Bool) (ls : List String) (hls : ∀ l ∈ (if all then o.layers else ls), o.exists l = true)
    (hb : ∀ l ∈ m.basicLayers, m.exists l = true ∨ l ∈ (if all then o.layers else ls)) :
    ∃ m', addDataFromI rd o false overwrite all ls m = (.ok true, m') ∧ InWorld w rd m' := by
  have hto : o.Tame := ⟨ht.x.trans (by have := hg.res_pos; nlinarith), ht.y.trans (by have := hg.res_pos; nlinarith)⟩
  obtain ⟨m', e, g, -, c, -⟩ := C76_merges_cell_by_cell hrd hm.geo hm.tame43 hm.coherent hg ht hc hk overwrite all ls _ rfl hls hb
  exact ⟨m', (C79_addDataFrom hrd hm.geo.start hm.small hg hto hs overwrite all ls).trans e, hm.congr g c⟩

/-- Merging in the world. -/
theorem addDataFromI_safe {w : World K} {rd : K → K} (hrd : DoublePrecision rd) {m o : CostMap K} (hm : InWorld w rd m)
    (hg : o.GeoRd rd) (hc : o.Coherent) (ht : o.Tame43) (hs : o.Small) {k : Idx} (hk : OnGrid (m.resolution / 8) m o k)
    (extend overwrite all : Bool) (ls : List String) (hls : ∀ l ∈ (if all then o.layers else ls), o.exists l = true)
    (hb : ∀ l ∈ m.basicLayers, m.exists l = true ∨ l ∈ (if all then o.layers else ls)) (he : extend = true → w.Extends m o) :
    ∃ m', addDataFromI rd o extend overwrite all ls m = (.ok true, m') ∧ InWorld w rd m' := by
  have hr := hm.geo.res_pos
  cases extend with
  | false =>
    exact mergeI_safe hrd hm hg hc ht hs ⟨hk.res, hk.x.trans (by linarith), hk.y.trans (by linarith)⟩ overwrite all ls hls hb
  | true =>
    obtain ⟨m1, k1, e1, -, h1, sm, hl, hres, hk1⟩ := extendI_safe hrd hm (he rfl)
    have hk2 := C77_still_on_grid hk1 hk
    rw [← add_div, ← two_mul, show 2 * m.resolution / 8 = m1.resolution / 4 by rw [hres]; ring] at hk2
    have hx : ∀ l, m1.exists l = true ↔ m.exists l = true := by
      intro l
      have a := h1.coherent.mem_iff l
      have b := hm.coherent.mem_iff l
      rw [hl] at a
      unfold CostMap.exists
      rw [← a, ← b]
    obtain ⟨m2, e2, h2⟩ := mergeI_safe hrd h1 hg hc ht hs hk2 overwrite all ls hls (by
      intro l hl
      rw [sm.basicLayers] at hl
      rw [hx]
      exact hb l hl)
    refine ⟨m2, ?_, h2⟩
    show Act.bind (extendToIncludeI rd o) (fun _ => addDataFromI rd o false overwrite all ls) m = _
    rw [Act.bind_ok e1, e2]

/-! ## Moving -/

theorem moveI_safe {w : World K} {rd : K → K} (hrd : DoublePrecision rd) {m : CostMap K} (hm : InWorld w rd m) {p : Vec K}
    (hp : PointIn w.size p) (hl : ∀ l ∈ m.basicLayers, m.exists l = true) :
    ∃ r m', moveI rd p m = (.ok r, m') ∧ InWorld w rd m' ∧ m'.size = m.size ∧ m'.resolution = m.resolution ∧
      |m'.position.x - p.x| ≤ m.resolution / 2 + w.size / 2 ^ 47 ∧ |m'.position.y - p.y| ≤ m.resolution / 2 + w.size / 2 ^ 47 := by
  rw [C79_move hrd hm.geo.res_pos hm.geo.start hm.coherent hl hm.small (hm.near hp)]
  obtain ⟨m0, m', regs, e, hm', he, -⟩ := moveWithRd_spec (rd := rd) clamp1_ranges hm.coherent hm.geo.start hl p
  obtain ⟨hg, hv⟩ := movedRd hrd clamp1_ranges hm.geo hm.arena hp he hm'
  have := moved_movable (B := w.size) (rd := rd) ⟨hm.geo, hm.coherent, hl, hm.arena⟩ he hm' hg hv.arena
  exact ⟨_, m', e, ⟨this.coherent, hg, hv.arena, by rw [hv.res]; exact hm.cell⟩, hv.size, hv.res, hv.target_x, hv.target_y⟩

/-! ## Writing at a position -/

theorem setAtPositionI_safe {w : World K} {rd : K → K} (hrd : DoublePrecision rd) {m : CostMap K} (hm : InWorld w rd m)
    {p : Vec K} (hp : PointIn w.size p) (hi : m.isInsideRd rd p = true →
      m.position.x - m.length.x / 2 + m.tolX ≤ p.x ∧ m.position.y - m.length.y / 2 + m.tolY ≤ p.y) (l : String) (v : Cost) :
    (setAtPositionI rd l p v m).1.Defined ∧ InWorld w rd (setAtPositionI rd l p v m).2 := by
  unfold setAtPositionI
  rw [C79_getIndex hrd hm.geo hm.tame hm.small (hm.near hp)]
  rw [show m.getIndexRd rd p = ((m.getIndexRd rd p).1, m.isInsideRd rd p) from rfl]
  dsimp only
  split
  · rename_i hin
    obtain ⟨hx, hy⟩ := hi hin
    obtain ⟨i, c, e, hi', -⟩ := C74_containing_cell_partial hrd hm.geo hm.tame hin hx hy
    rw [e]
    exact ⟨setAt_defined hm.coherent l hi' v, InWorld.stable.keeps (setAt_shape l i v) m hm⟩
  · exact ⟨by simp, hm⟩

/-! ## Submaps -/

theorem getSubmapI_safe {w : World K} {rd : K → K} (hrd : DoublePrecision rd) {m : CostMap K} (hm : InWorld w rd m)
    {pos len : Vec K} (hp : PointIn w.size pos) (hr : RequestOkRd rd m pos len) (hcen : CentreOkRd rd m pos len) (idx : Idx) :
    ∃ s, m.getSubmapI rd pos len idx = .ok (s, idx, true) ∧ InWorld w rd s := by
  obtain ⟨s, k, e, g, t, c, -, -, hk, -, hin, hop⟩ := C78_submap_partial hrd hm.geo hm.coherent hm.tame43 hr hcen idx
  have hres : s.resolution = m.resolution := hk.res.symm
  have hr0 := hm.geo.res_pos
  have hcells := hm.cells
  -- no more cells than the map
  have hsz : s.size.x ≤ m.size.x ∧ s.size.y ≤ m.size.y := by
    have at' : ∀ u : Idx, u.In s.size → (u + k).In m.size := by
      intro u hu
      have hb := bufferIdx_in hu g.start
      obtain ⟨j, hj, -⟩ := hop _ hb
      rw [opposite_iff hm.geo.start] at hj
      have e : s.logical (bufferIdx u s.size s.startIndex) = u := by rw [logical_eq_unwrap hb, unwrap_buffer hu g.start]
      rw [e] at hj
      exact hj.1
    have sx := g.size_x; have sy := g.size_y
    obtain ⟨a1, -, a3, -⟩ := at' ⟨0, 0⟩ ⟨le_rfl, sx, le_rfl, sy⟩
    obtain ⟨-, b2, -, b4⟩ := at' ⟨s.size.x - 1, s.size.y - 1⟩ ⟨by dsimp only; omega, by dsimp only; omega, by dsimp only; omega, by dsimp only; omega⟩
    simp only [Idx.add_x, Idx.add_y] at a1 a3 b2 b4
    omega
  have hx : ((s.size.x : K) + 1) * s.resolution ≤ w.size := by
    have : (s.size.x : K) ≤ m.size.x := by exact_mod_cast hsz.1
    rw [hres]
    exact le_trans (mul_le_mul_of_nonneg_right (by linarith) hr0.le) hm.arena.size_x
  have hy : ((s.size.y : K) + 1) * s.resolution ≤ w.size := by
    have : (s.size.y : K) ≤ m.size.y := by exact_mod_cast hsz.2
    rw [hres]
    exact le_trans (mul_le_mul_of_nonneg_right (by linarith) hr0.le) hm.arena.size_y
  -- the centre is near the requested position
  have hpos : |s.position.x| ≤ 2 * w.size ∧ |s.position.y| ≤ 2 * w.size := by
    have hin' := hin
    simp only [isInsideRd, withinMapRd, Bool.and_eq_true, decide_eq_true_eq] at hin'
    obtain ⟨⟨⟨x0, y0⟩, x1⟩, y1⟩ := hin'
    have key : ∀ {n : Int} {c len T q : K}, Axis rd n c len s.resolution T → ((n : K) + 1) * s.resolution ≤ w.size →
        |q| ≤ w.size → |q - c| ≤ n * s.resolution / 2 + 24 * (T / 2 ^ 53) → |c| ≤ 2 * w.size := by
      intro n c len T q a hn hq hd
      have hu := a.unit
      have hr := a.r_pos
      have := abs_sub_abs_le_abs_sub c q
      rw [abs_sub_comm] at this
      have h3 : (0 : K) ≤ (n : K) * s.resolution := le_trans hr.le a.nr_pos
      rw [add_mul] at hn
      nlinarith
    exact ⟨key (axis_x g t) hx hp.1 ((axis_x g t).inside_near hrd x0 x1), key (axis_y g t) hy hp.2 ((axis_y g t).inside_near hrd y0 y1)⟩
  exact ⟨s, (C79_getSubmap hrd hm.geo hm.tame43 hm.small hr hcen idx).trans e, c, g,
    ⟨hx, hy, by rw [hres]; exact hm.arena.cells, hpos.1, hpos.2⟩, by rw [hres]; exact hm.cell⟩

/-! ## Every call -/

theorem discard_safe {α : Type} {P : CostMap K → Prop} {f : Act (CostMap K) α} {m : CostMap K}
    (h : (f m).1.Defined ∧ P (f m).2) : (Call.discard f m).1.Defined ∧ P (Call.discard f m).2 := by
  unfold Call.discard Act.bind
  revert h
  rcases f m with ⟨r, s⟩
  cases r <;> simp [Act.pure, Res.Defined]

/-- A call that fits the world has a defined outcome and leaves the map in the world. -/
theorem call_inWorld {w : World K} {F : Fmt K} {rf : K → K} (hrd : DoublePrecision F.rd) (hF : IntsExact F.rd)
    (htop : 2 ^ 31 ≤ F.top) {m : CostMap K} (hm : InWorld w F.rd m) (c : MachineCall K) (h : w.Fits F rf m c) :
    (c.run F rf m).1.Defined ∧ InWorld w F.rd (c.run F rf m).2 := by
  have st := InWorld.stable (w := w) (rd := F.rd)
  have same : ∀ {m' : CostMap K}, m'.layers = m.layers → m'.data = m.data → SameGeometry m m' → InWorld w F.rd m' :=
    fun h1 h2 h3 => st.info h1 h2 h3 hm
  cases c with
  | plain c =>
    cases c with
    | setBasicLayers ls => exact ⟨by simp [MachineCall.run, Call.run, Act.modify], same rfl rfl ⟨rfl, rfl, rfl, rfl, rfl⟩⟩
    | setTimestamp t => exact ⟨by simp [MachineCall.run, Call.run, Act.modify], same rfl rfl ⟨rfl, rfl, rfl, rfl, rfl⟩⟩
    | resetTimestamp => exact ⟨by simp [MachineCall.run, Call.run, Act.modify], same rfl rfl ⟨rfl, rfl, rfl, rfl, rfl⟩⟩
    | setFrameId f => exact ⟨by simp [MachineCall.run, Call.run, Act.modify], same rfl rfl ⟨rfl, rfl, rfl, rfl, rfl⟩⟩
    | setPosition p =>
      obtain ⟨hc, g, a, ce⟩ := hm
      exact ⟨by simp [MachineCall.run, Call.run, Act.modify], hc.of_eq rfl rfl rfl,
        ⟨g.res_pos, g.size_x, g.size_y, g.len_x, g.len_y, g.start⟩, ⟨a.size_x, a.size_y, a.cells,
        h.1.trans (by linarith [(abs_nonneg _).trans h.1]), h.2.trans (by linarith [(abs_nonneg _).trans h.1])⟩, ce⟩
    | setStartIndex i =>
      obtain ⟨hc, g, a, ce⟩ := hm
      exact ⟨by simp [MachineCall.run, Call.run, Act.modify], hc.of_eq rfl rfl rfl,
        ⟨g.res_pos, g.size_x, g.size_y, g.len_x, g.len_y, h⟩, ⟨a.size_x, a.size_y, a.cells, a.pos_x, a.pos_y⟩, ce⟩
    | add l a => exact ⟨add_defined l a m, st.add l a m hm⟩
    | addConst l v => exact ⟨add_defined l _ m, st.addConst l v m hm⟩
    | erase l => exact discard_safe ⟨erase_defined l m, hm.congr (erase_geometry l m) (erase_coherent l m hm.coherent)⟩
    | setAt l i v => exact ⟨setAt_defined hm.coherent l h v, st.keeps (setAt_shape l i v) m hm⟩
    | clear l => exact ⟨clear_defined l m, st.keeps (clear_shape l) m hm⟩
    | clearBasic =>
      exact ⟨(Safe.forEach (P := fun _ => True) (fun l _ s _ => ⟨clear_defined l s, trivial⟩) m trivial).1,
        st.keeps clearBasic_shape m hm⟩
    | clearAll => exact ⟨by simp [MachineCall.run, Call.run, Act.modify], st.shape (SameShape.clearAll m) hm⟩
    | deflate k ls ld => exact ⟨deflate_defined hm.coherent k ls ld, st.deflate k ls ld m hm⟩
    | _ => exact h.elim
  | setGeometry len r p =>
    obtain ⟨m', e, h', -⟩ := setGeometryI_fits hrd h hm.coherent
    show (setGeometryI F.rd len r p m).1.Defined ∧ InWorld w F.rd (setGeometryI F.rd len r p m).2
    rw [e]; exact ⟨by simp, h'⟩
  | setAtPosition l p v => exact setAtPositionI_safe hrd hm h.1 h.2 l v
  | move p =>
    obtain ⟨r, m', e, h', -⟩ := moveI_safe hrd hm h.1 h.2
    exact discard_safe (by rw [e]; exact ⟨by simp, h'⟩)
  | extendToInclude o =>
    obtain ⟨m', k, e, -, h', -⟩ := extendI_safe hrd hm h
    exact discard_safe (by rw [e]; exact ⟨by simp, h'⟩)
  | addDataFrom o e w' a ls =>
    obtain ⟨h1, h2, h3, h4, ⟨k, h5⟩, h6, h7, h8⟩ := h
    obtain ⟨m', e, h'⟩ := addDataFromI_safe hrd hm h1 h2 h3 h4 h5 e w' a ls h6 h7 h8
    exact discard_safe (by rw [e]; exact ⟨by simp, h'⟩)
  | inflate obj pop hyp ls ld r f =>
    obtain ⟨h1, h2, h3, h4, h5⟩ := h
    exact ⟨inflateU_defined hrd hF htop hm h1 h2 h3 h4 h5 ls ld,
      Inflation.inflateU_keeps st F rf pop hyp (.fin r) f ⟨obj, m, []⟩ hm⟩
  | fromMessage msg =>
    obtain ⟨h1, h2, h3, h4⟩ := h
    exact discard_safe (fromMessageI_safe hrd h1 h2 h3 h4 hm.coherent)
  | addLayerFromImage cv img l => exact discard_safe (addLayerFromImageI_safe cv img l m hm)
  | fromImageBundle cv files =>
    obtain ⟨h1, h2, -⟩ := fromImageBundleI_safe hrd cv h hm.coherent
    refine ⟨h1, ?_⟩
    rcases h2 with h2 | h2
    · show InWorld w F.rd (fromImageBundleI F.rd rf cv files m).2
      rw [h2]; exact hm
    · exact h2
  | fromCostmap c l =>
    obtain ⟨m', e, h'⟩ := fromCostmap2DROSI_safe hrd h hm.coherent l
    exact discard_safe (by rw [e]; exact ⟨by simp, h'⟩)
  | fromCostmapAtRobot c g l =>
    obtain ⟨b, m', e, h'⟩ := fromCostmapAtRobotI_safe hrd h.1 h.2 hm.coherent l
    refine discard_safe (by
      rw [e]
      refine ⟨by simp, ?_⟩
      rcases h' with ⟨-, h'⟩ | h'
      · rw [h']; exact hm
      · exact h')

/-- A map that was given a geometry. -/
theorem first_inWorld {w : World K} {F : Fmt K} {rf : K → K} (hrd : DoublePrecision F.rd) {ls : List String} (hn : ls.Nodup)
    {c : MachineCall K} (hg : c.GivesGeometry) (h : w.Fits F rf (CostMap.new ls) c) {m : CostMap K}
    (e : c.run F rf (CostMap.new ls) = (.ok (), m)) : InWorld w F.rd m := by
  have hc := new_coherent (K := K) hn
  cases c with
  | setGeometry len r p =>
    obtain ⟨m', e', h', -⟩ := setGeometryI_fits hrd h hc
    rw [show MachineCall.run F rf (.setGeometry len r p) (CostMap.new ls) = _ from e'] at e
    cases e; exact h'
  | fromMessage msg =>
    obtain ⟨h1, h2, h3, h4⟩ := h
    have := (discard_safe (fromMessageI_safe hrd h1 h2 h3 h4 hc)).2
    rw [show Call.discard (fromMessageI F.rd msg) (CostMap.new ls) = _ from e] at this
    exact this
  | fromImageBundle cv files =>
    obtain ⟨-, -, h3⟩ := fromImageBundleI_safe hrd cv h hc
    rw [show fromImageBundleI F.rd rf cv files (CostMap.new ls) = _ from e] at h3
    exact h3 rfl
  | fromCostmap c l =>
    obtain ⟨m', e', h'⟩ := fromCostmap2DROSI_safe hrd h hc l
    have := (discard_safe (P := InWorld w F.rd) (f := fromCostmap2DROSI F.rd c l) (m := CostMap.new ls)
      (by rw [e']; exact ⟨by simp, h'⟩)).2
    rw [show Call.discard (fromCostmap2DROSI F.rd c l) (CostMap.new ls) = _ from e] at this
    exact this
  | fromCostmapAtRobot c g l =>
    obtain ⟨b, m', e', h'⟩ := fromCostmapAtRobotI_safe hrd h.1 h.2 hc l
    have := (discard_safe (P := InWorld w F.rd) (f := fromCostmap2DROSAtRobotPoseI F.rd c g l) (m := CostMap.new ls)
      (by rw [e']; exact ⟨by simp, h'.resolve_left fun h => hg h.1⟩)).2
    rw [show Call.discard (fromCostmap2DROSAtRobotPoseI F.rd c g l) (CostMap.new ls) = _ from e] at this
    exact this
  | _ => exact hg.elim

theorem held_inWorld {w : World K} {F : Fmt K} {rf : K → K} (hrd : DoublePrecision F.rd) (hF : IntsExact F.rd)
    (htop : 2 ^ 31 ≤ F.top) {m : CostMap K} (h : HeldI w F rf m) : InWorld w F.rd m := by
  induction h with
  | new c hn hg hf e => exact first_inWorld hrd hn hg hf e
  | returned c _ hf e ih => have := (call_inWorld hrd hF htop ih c hf).2; rwa [e] at this
  | threw c x _ hf e ih => have := (call_inWorld hrd hF htop ih c hf).2; rwa [e] at this
  | submap pos len i j _ hp hr hcen e ih =>
    obtain ⟨s, e', h'⟩ := getSubmapI_safe hrd ih hp hr hcen i
    rw [e'] at e
    cases e; exact h'

end CostMapModel

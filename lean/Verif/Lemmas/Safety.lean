import Verif.Spec.Safety
import Verif.Lemmas.History
import Verif.Lemmas.Costmap2D
import Verif.Lemmas.Occupancy

/-! # Calls with a defined outcome -/

set_option linter.unusedSectionVars false

namespace CostMapModel
variable {K : Type} [Field K] [LinearOrder K] [IsStrictOrderedRing K] [FloorRing K]

namespace Res
variable {α β : Type}

@[simp] theorem defined_ok (a : α) : (ok a).Defined := ⟨by simp, by simp⟩
@[simp] theorem defined_thrown (e : Exn) : (thrown e : Res α).Defined := ⟨by simp, by simp⟩
@[simp] theorem defined_assertFail : (assertFail : Res α).Defined := ⟨by simp, by simp⟩

theorem Defined.bind {r : Res α} {f : α → Res β} (h : r.Defined) (hf : ∀ a, r = .ok a → (f a).Defined) : (r.bind f).Defined := by
  cases r with
  | ok a => exact hf a rfl
  | thrown e => simp
  | assertFail => simp
  | ub => exact absurd rfl h.1
  | outOfFuel => exact absurd rfl h.2

end Res

namespace Act
variable {σ α β : Type} {P : σ → Prop}

/-- Calls that have a defined outcome where `P` holds, and keep it. -/
def Safe (P : σ → Prop) (f : Act σ α) : Prop := ∀ s, P s → (f s).1.Defined ∧ P (f s).2

theorem Safe.pure (a : α) : Safe P (Act.pure a) := fun _ h => ⟨by simp [Act.pure], h⟩

theorem Safe.lift {r : Res α} (h : r.Defined) : Safe P (Act.lift r) := fun _ hs => ⟨h, hs⟩

theorem Safe.read {f : σ → Res α} (h : ∀ s, P s → (f s).Defined) : Safe P (Act.read f) := fun s hs => ⟨h s hs, hs⟩

theorem Safe.modify {f : σ → σ} (h : ∀ s, P s → P (f s)) : Safe P (Act.modify f) :=
  fun s hs => ⟨by simp [Act.modify], h s hs⟩

theorem Safe.bindOk {f : Act σ α} {g : α → Act σ β} (hf : Safe P f)
    (hg : ∀ s a s', P s → f s = (.ok a, s') → P s' → (g a s').1.Defined ∧ P (g a s').2) : Safe P (Act.bind f g) := by
  intro s hs
  have h := hf s hs
  unfold Act.bind
  cases hr : f s with
  | mk r s' =>
    rw [hr] at h
    cases r with
    | ok a => exact hg s a s' hs hr h.2
    | thrown e => exact ⟨by simp, h.2⟩
    | assertFail => exact ⟨by simp, h.2⟩
    | ub => exact absurd rfl h.1.1
    | outOfFuel => exact absurd rfl h.1.2

theorem Safe.bind {f : Act σ α} {g : α → Act σ β} (hf : Safe P f) (hg : ∀ a, Safe P (g a)) : Safe P (Act.bind f g) :=
  hf.bindOk fun _ a s' _ _ hs' => hg a s' hs'

theorem Safe.liftBind {r : Res α} {g : α → Act σ β} (h : r.Defined) (hg : ∀ a, r = .ok a → Safe P (g a)) :
    Safe P (Act.bind (Act.lift r) g) :=
  Safe.bindOk (Safe.lift h) fun _ a s' _ e hs' => hg a (congrArg Prod.fst e) s' hs'

theorem Safe.ite {c : Prop} [Decidable c] {f g : Act σ α} (hf : Safe P f) (hg : Safe P g) : Safe P (if c then f else g) := by
  split <;> assumption

theorem Safe.forEach {f : α → Act σ Unit} : ∀ {as : List α}, (∀ a ∈ as, Safe P (f a)) → Safe P (Act.forEach f as)
  | [], _ => Safe.pure ()
  | a :: _, h => (h a (List.mem_cons_self ..)).bind fun _ => Safe.forEach fun b hb => h b (List.mem_cons_of_mem _ hb)

theorem Safe.discard {f : Act σ α} (h : Safe P f) : Safe P (Call.discard f) := h.bind fun _ => Safe.pure ()

/-- A sequence of calls of which the first establishes what the others need. -/
theorem bind_defined {f : Act σ α} {g : α → Act σ β} {s : σ} (hf : (f s).1.Defined)
    (hg : ∀ a s', f s = (.ok a, s') → (g a s').1.Defined) : (Act.bind f g s).1.Defined := by
  unfold Act.bind
  cases hr : f s with
  | mk r s' =>
    rw [hr] at hf
    cases r with
    | ok a => exact hg a s' hr
    | thrown e => simp
    | assertFail => simp
    | ub => exact absurd rfl hf.1
    | outOfFuel => exact absurd rfl hf.2

end Act

open Act (Safe bind_defined)

namespace CostMap

/-- Coherent, with a usable geometry. -/
structure Sound (m : CostMap K) : Prop where
  coherent : m.Coherent
  geo : m.Geo

theorem Sound.shape {m m' : CostMap K} (h : SameShape m m') (hm : m.Sound) : m'.Sound :=
  ⟨h.coherent hm.coherent, geo_congr hm.geo h.geo⟩

/-- Sound, of the same size as a given map. -/
structure SoundLike (m0 m : CostMap K) : Prop extends Sound m where
  size : m.size = m0.size

theorem SoundLike.shape {m0 m m' : CostMap K} (h : SameShape m m') (hm : SoundLike m0 m) : SoundLike m0 m' :=
  ⟨hm.toSound.shape h, h.geo.size.trans hm.size⟩

theorem at_defined {m : CostMap K} (hc : m.Coherent) (l : String) {i : Idx} (hi : i.In m.size) : (m.at l i).Defined := by
  by_cases hl : m.exists l = true
  · obtain ⟨c, h⟩ := hc.at_ok hl hi
    rw [h]; simp
  · have : m.data l = none := by simpa [CostMap.exists] using hl
    unfold CostMap.at
    rw [this]; simp

theorem get_defined (m : CostMap K) (l : String) : (m.get l).Defined := by
  unfold CostMap.get
  split <;> simp

theorem allValid_defined {m : CostMap K} (hc : m.Coherent) {i : Idx} (hi : i.In m.size) : ∀ ls, (m.allValid i ls).Defined
  | [] => by simp [allValid]
  | l :: ls => by
    unfold allValid
    refine (at_defined hc l hi).bind fun c _ => ?_
    split
    · simp
    · exact allValid_defined hc hi ls

theorem isValidLayers_defined {m : CostMap K} (hc : m.Coherent) {i : Idx} (hi : i.In m.size) (ls : List String) :
    (m.isValidLayers i ls).Defined := by
  unfold isValidLayers
  split
  · simp
  · exact allValid_defined hc hi ls

theorem isValidLayer_defined {m : CostMap K} (hc : m.Coherent) {i : Idx} (hi : i.In m.size) (l : String) :
    (m.isValidLayer i l).Defined :=
  (at_defined hc l hi).bind fun _ _ => by simp

theorem setAt_defined {m : CostMap K} (hc : m.Coherent) (l : String) {i : Idx} (hi : i.In m.size) (v : Cost) :
    (setAt l i v m).1.Defined := by
  unfold setAt
  split
  · simp
  · rename_i a ha
    rw [if_pos ((hc.inRange ha i).mpr hi)]
    simp

theorem setAt_safe {m0 : CostMap K} (l : String) {i : Idx} (hi : i.In m0.size) (v : Cost) :
    Safe (SoundLike m0) (setAt l i v) := fun s hs =>
  ⟨setAt_defined hs.coherent l (hs.size.symm ▸ hi) v, hs.shape (setAt_shape l i v s)⟩

theorem setGeometry_defined (len : Vec K) (r : K) (p : Vec K) (m : CostMap K) : (setGeometry len r p m).1.Defined := by
  unfold setGeometry
  split
  · simp
  split
  · simp
  split <;> simp

theorem add_defined (l : String) (a : Mat Cost) (m : CostMap K) : (add l a m).1.Defined := by
  unfold add
  split
  · simp
  split
  · simp
  split <;> simp

theorem add_safe (l : String) (a : Mat Cost) : Safe (Sound (K := K)) (add l a) := fun s hs =>
  ⟨add_defined l a s, add_coherent l a s hs.coherent, geo_congr hs.geo (add_geometry l a s)⟩

theorem addConst_safe (l : String) (v : Cost) : Safe (Sound (K := K)) (addConst l v) := fun s hs => add_safe l _ s hs

theorem erase_defined (l : String) (m : CostMap K) : (erase l m).1.Defined := by
  unfold erase
  split
  · simp
  dsimp only
  split <;> simp

theorem clear_defined (l : String) (m : CostMap K) : (clear l m).1.Defined := by
  unfold clear
  split <;> simp

/-- A loop over the cells. -/
theorem forCells_safe {m : CostMap K} (hm : m.Sound) {body : Idx → Act (CostMap K) Unit}
    (hb : ∀ i, i.In m.size → Safe (SoundLike m) (body i)) :
    (forCells body m).1.Defined ∧ SoundLike m (forCells body m).2 := by
  rw [forCells_eq hm.geo.start]
  exact Safe.forEach (fun i hi => hb i ((mem_cells hm.geo.start).1 hi)) m ⟨hm, rfl⟩

/-! ## move -/

theorem clearBlock_safe {m0 : CostMap K} {i j n k : Int} (l : String)
    (h : 0 ≤ i ∧ 0 ≤ j ∧ 0 ≤ n ∧ 0 ≤ k ∧ i + n ≤ m0.size.x ∧ j + k ≤ m0.size.y) :
    Safe (SoundLike m0) (clearBlock i j n k l) := by
  refine fun s hs => ⟨?_, hs.shape (clearBlock_shape i j n k l s)⟩
  unfold clearBlock
  split
  · simp
  · rename_i a ha
    have hd := hs.coherent.dims l a ha
    rw [hs.size] at hd
    unfold setBlockConstant
    rw [hd.1, hd.2, if_pos h]
    simp

theorem clearStrip_safe {m0 : CostMap K} (ax : Fin 2) {index n : Int} (h1 : 0 ≤ index) (h2 : 0 ≤ n)
    (h3 : index + n ≤ comp m0.size ax) : Safe (SoundLike m0) (clearStrip ax index n) := by
  intro s hs
  have hx := hs.geo.size_x
  have hy := hs.geo.size_y
  rw [hs.size] at hx hy
  unfold clearStrip
  unfold comp at h3
  split
  · rename_i h0
    rw [if_pos h0] at h3
    unfold clearRows
    rw [hs.size]
    exact Safe.forEach (fun l _ => clearBlock_safe l ⟨h1, le_refl _, h2, hy.le, h3, by omega⟩) s hs
  · rename_i h0
    rw [if_neg h0] at h3
    unfold clearCols
    rw [hs.size]
    exact Safe.forEach (fun l _ => clearBlock_safe l ⟨le_refl _, h1, hx.le, h2, by omega, h3⟩) s hs

theorem dropAxis_safe {m0 : CostMap K} (sh : Idx) (ax : Fin 2) : Safe (SoundLike m0) (dropAxis clamp1 sh ax) := by
  intro s hs
  unfold dropAxis
  have hsz : 0 < comp m0.size ax := by
    have hx := hs.geo.size_x
    have hy := hs.geo.size_y
    rw [hs.size] at hx hy
    unfold comp; split <;> assumption
  rw [hs.size]
  dsimp only
  split
  · split
    · exact ⟨by simp, hs.shape (SameShape.clearAll s)⟩
    · rename_i hlt
      have hn := abs_nonneg (comp sh ax)
      generalize hi : clamp1 _ _ = index
      have hr := clamp1_range (i := if (if comp sh ax > 0 then (1 : Int) else -1) > 0 then
        comp s.startIndex ax - (if (if comp sh ax > 0 then (1 : Int) else -1) < 0 then 1 else 0) else
        comp s.startIndex ax - (if (if comp sh ax > 0 then (1 : Int) else -1) < 0 then 1 else 0) -
          (if comp sh ax > 0 then (1 : Int) else -1) + comp sh ax) hsz
      rw [hi] at hr
      split
      · exact (Safe.bind (clearStrip_safe ax hr.1 hn (by omega)) fun _ => Safe.pure _) s hs
      · exact (Safe.bind (clearStrip_safe ax hr.1 (by omega) (by omega)) fun _ =>
          Safe.bind (clearStrip_safe ax (le_refl _) (by omega) (by omega)) fun _ => Safe.pure _) s hs
  · exact ⟨by simp, hs⟩

theorem move_defined {m : CostMap K} (hm : m.Sound) (p : Vec K) : (move p m).1.Defined := by
  unfold move moveWith
  dsimp only
  refine bind_defined (dropAxis_safe (m0 := m) _ 0 m ⟨hm, rfl⟩).1 fun r0 s1 e1 => ?_
  have h1 := (dropAxis_safe (m0 := m) (indexShift (p - m.position) m.resolution) 0 m ⟨hm, rfl⟩).2
  rw [e1] at h1
  exact bind_defined (dropAxis_safe (m0 := m) _ 1 s1 h1).1 fun r1 s2 _ => by simp

/-! ## Merging -/

theorem mergeLayer_safe {m0 o : CostMap K} (ho : o.Coherent) {i j : Idx} (hi : i.In m0.size) (hj : j.In o.size) (l : String) :
    Safe (SoundLike m0) (mergeLayer o i j l) := by
  refine Safe.bind (Safe.lift (isValidLayer_defined ho hj l)) fun _ => Safe.ite (Safe.pure _) ?_
  exact Safe.bind (Safe.lift (at_defined ho l hj)) fun c => setAt_safe l hi c

theorem mergeCell_safe {m0 o : CostMap K} (ho : o.Sound) (w : Bool) (ls : List String) {i : Idx} (hi : i.In m0.size) :
    Safe (SoundLike m0) (mergeCell o w ls i) := by
  refine Safe.bind (Safe.read fun s hs => isValidLayers_defined hs.coherent (hs.size.symm ▸ hi) _) fun v =>
    Safe.ite (Safe.pure _) fun s hs => ?_
  rw [getPosition_eq (hs.size.symm ▸ hi)]
  dsimp only
  split
  · exact ⟨by simp, hs⟩
  · rename_i hin
    simp only [Bool.not_eq_true, Bool.not_eq_false'] at hin
    exact Safe.forEach (fun l _ => mergeLayer_safe ho.coherent hi (getIndex_in ho.geo (by simpa using hin)) l) s hs

theorem restoreCell_safe {m0 o : CostMap K} (ho : o.Sound) {i : Idx} (hi : i.In m0.size) :
    Safe (SoundLike m0) (restoreCell o i) := by
  refine Safe.bind (Safe.read fun s hs => isValidLayers_defined hs.coherent (hs.size.symm ▸ hi) _) fun v =>
    Safe.ite (Safe.pure _) fun s hs => ?_
  rw [getPosition_eq (hs.size.symm ▸ hi)]
  dsimp only
  split
  · exact ⟨by simp, hs⟩
  · rename_i hin
    refine Safe.forEach (fun l _ => ?_) s hs
    exact Safe.bind (Safe.lift (at_defined ho.coherent l (getIndex_in ho.geo (by simpa using hin)))) fun c => setAt_safe l hi c

theorem extendToInclude_safe (o : CostMap K) : Safe (Sound (K := K)) (extendToInclude o) := by
  intro m hm
  rw [extendToInclude_eq hm.geo]
  split
  · have h := forCells_safe ⟨extEmpty_coherent hm.geo hm.coherent o, extEmpty_geo hm.geo o⟩
      (body := restoreCell m) fun i hi => restoreCell_safe hm hi
    refine ⟨bind_defined h.1 fun _ _ _ => by simp [Act.pure], ?_⟩
    exact Act.bind_keeps (P := Sound) h.2.toSound fun _ => Act.Keeps.pure _
  · exact ⟨by simp, hm⟩

theorem addMissing_safe (l : String) : Safe (Sound (K := K)) (addMissing l) := by
  intro m hm
  unfold addMissing
  split
  · exact ⟨by simp, hm⟩
  · exact addConst_safe l _ m hm

theorem addDataFrom_safe {o : CostMap K} (ho : o.Sound) (e w a : Bool) (ls : List String) :
    Safe (Sound (K := K)) (addDataFrom o e w a ls) := by
  unfold addDataFrom
  refine Safe.bind (Safe.ite (extendToInclude_safe o) (Safe.pure _)) fun _ =>
    Safe.bind (Safe.forEach fun l _ => addMissing_safe l) fun _ => Safe.bind (fun m hm => ?_) fun _ => Safe.pure _
  have h := forCells_safe hm (body := mergeCell o w (if a = true then o.layers else ls)) fun i hi => mergeCell_safe ho w _ hi
  exact ⟨h.1, h.2.toSound⟩

/-! ## Deflation -/

theorem deflate_defined {m : CostMap K} (hc : m.Coherent) (k : Bool) (ls ld : String) : (deflate k ls ld m).1.Defined := by
  refine bind_defined (get_defined m ls) fun src m' e => ?_
  have hsrc : m.get ls = .ok src := congrArg Prod.fst e
  obtain rfl : m = m' := congrArg Prod.snd e
  have hd : (src.rows : Int) = m.size.x ∧ (src.cols : Int) = m.size.y := by
    unfold CostMap.get at hsrc
    split at hsrc
    · rename_i a ha; cases hsrc; exact hc.dims _ _ ha
    · cases hsrc
  refine bind_defined (add_defined _ _ _) fun _ m1 e1 => ?_
  have h1 : m1.Coherent := by
    have := add_coherent ld (Mat.const m.size.x.toNat m.size.y.toNat NO_INFORMATION) m hc
    rw [show add ld _ m = _ from e1] at this; exact this
  have h2 : m1.size = m.size := by
    have := (add_geometry ld (Mat.const m.size.x.toNat m.size.y.toNat NO_INFORMATION) m).size
    rw [show add ld _ m = _ from e1] at this; exact this
  refine (Safe.forEach (P := fun s => s.Coherent ∧ s.size = m.size) (fun i hi => ?_) m1 ⟨h1, h2⟩).1
  rw [Inflation.mem_colMajor] at hi
  obtain ⟨c, hcget⟩ := src.exists_get? (i := i.x) (j := i.y) hi
  refine Safe.bind (Safe.lift (by rw [hcget]; simp)) fun c s hs => ?_
  have hin : i.In s.size := by
    rw [hs.2]
    obtain ⟨a, b, c, d⟩ := hi
    exact ⟨a, by omega, c, by omega⟩
  exact ⟨setAt_defined hs.1 ld hin _, (setAt_shape ld i _ s).coherent hs.1, (setAt_shape ld i _ s).geo.size.trans hs.2⟩

/-! ## Messages -/

theorem toMat_defined {a : MultiArray} (h : a.Complete) : a.toMat.Defined := by
  obtain ⟨h1, h2⟩ := h
  unfold MultiArray.toMat
  refine Res.Defined.bind ?_ fun r _ => ?_
  · unfold MultiArray.isRowMajor
    split
    · exact absurd ‹_› h1
    · simp
  split
  · simp
  unfold MultiArray.dimSize
  cases hr : a.dim[1]? with
  | none => simp
  | some rows =>
    cases hcs : a.dim[0]? with
    | none => simp
    | some cols =>
      simp only [Res.bind_ok]
      unfold MultiArray.mapData
      rw [dif_pos (h2 cols rows hcs hr)]
      simp

theorem fromMessage_defined {msg : CostMapMsg K} (h : ∀ a ∈ msg.data, a.Complete) (m : CostMap K) :
    (fromMessage msg m).1.Defined := by
  unfold fromMessage
  refine (Safe.bind (P := fun _ => True) (Safe.modify fun _ _ => trivial) (fun _ => ?_) m trivial).1
  refine Safe.bind (fun s _ => ⟨setGeometry_defined _ _ _ s, trivial⟩) fun _ => Safe.ite (Safe.pure _) ?_
  refine Safe.bind (Safe.forEach fun p hp => ?_) fun _ => Safe.bind (Safe.modify fun _ _ => trivial) fun _ => Safe.pure _
  exact Safe.bind (Safe.lift (toMat_defined (h p.2 (List.of_mem_zip hp).2))) fun a s _ => ⟨add_defined _ _ s, trivial⟩

/-! ## Images and bundles -/

theorem imageCell_safe {m0 : CostMap K} (cv : Cv) {img : Image} (hr : img.readable = true) (hx : m0.size.x = img.height)
    (hy : m0.size.y = img.width) (l : String) {i : Idx} (hi : i.In m0.size) : Safe (SoundLike m0) (imageCell cv img l i) := by
  obtain ⟨a, b, c, d⟩ := hi
  obtain ⟨v, hv⟩ := sample_ok cv hr (i := i) a (hx ▸ b) c (hy ▸ d)
  refine Safe.liftBind (by rw [hv]; simp) fun s hs => ?_
  split
  · exact Safe.pure _
  · rename_i g
    obtain ⟨hg, k, hk, hd⟩ := sample_lt hs
    rw [hd] at hg ⊢
    exact Safe.bind (Safe.lift (by rw [toUChar_gray hk hg]; simp)) fun v => setAt_safe l ⟨a, b, c, d⟩ v

theorem addLayerFromImage_safe (cv : Cv) (img : Image) (l : String) : Safe (Sound (K := K)) (addLayerFromImage cv img l) := by
  unfold addLayerFromImage
  split
  · exact Safe.pure _
  rename_i hr
  rw [not_not] at hr
  refine Safe.bind (addConst_safe l _) fun _ m hm => ?_
  split
  · exact ⟨by simp, hm⟩
  · rename_i hne
    push Not at hne
    have h := forCells_safe hm (body := imageCell cv img l) fun i hi => imageCell_safe cv hr hne.1 hne.2 l hi
    refine ⟨bind_defined h.1 fun _ _ _ => by simp [Act.pure], ?_⟩
    exact Act.bind_keeps (P := Sound) h.2.toSound fun _ => Act.Keeps.pure _

theorem readLayers_defined : ∀ (ls : List BundleLayer) (acc : List (String × String)), (readLayers ls acc).Defined
  | [], _ => by simp [readLayers]
  | ⟨none, _⟩ :: _, _ => by simp [readLayers]
  | ⟨some _, none⟩ :: _, _ => by simp [readLayers]
  | ⟨some n, some d⟩ :: ls, acc => by unfold readLayers; exact readLayers_defined ls _

theorem readInfo_defined (rf : K → K) (y : YamlFile K) : (readInfo rf y).Defined := by
  unfold readInfo
  split
  · simp
  · simp
  · split
    · exact (readLayers_defined _ _).bind fun _ _ => by simp
    · simp

theorem setGeometry_sound {len : Vec K} {r : K} {p : Vec K} (h : HalfCell len r) {m m' : CostMap K} (hc : m.Coherent)
    (e : setGeometry len r p m = (.ok (), m')) : m'.Sound := by
  have hc' := setGeometry_coherent len r p m hc
  rw [e] at hc'
  refine ⟨hc', ?_⟩
  unfold setGeometry at e
  split at e
  · cases e
  split at e
  · cases e
  split at e
  · cases e
  rename_i h1 h2 h3
  simp only [not_not] at h1 h2 h3
  have hx : 0 < roundHalfAway (len.x / r) := round_pos (by rw [le_div_iff₀ h3]; linarith [h.1])
  have hy : 0 < roundHalfAway (len.y / r) := round_pos (by rw [le_div_iff₀ h3]; linarith [h.2])
  cases e
  exact ⟨h3, hx, hy, rfl, rfl, ⟨le_refl _, hx, le_refl _, hy⟩⟩

theorem fromImageBundle_defined (cv : Cv) {rf : K → K} {files : Files K} {m : CostMap K} (hc : m.Coherent)
    (hu : Call.Usable m (.fromImageBundle cv rf files)) : (fromImageBundle cv rf files m).1.Defined := by
  refine bind_defined (readInfo_defined rf files.yaml) fun b m' e => ?_
  have hb : readInfo rf files.yaml = .ok b := congrArg Prod.fst e
  obtain rfl : m = m' := congrArg Prod.snd e
  refine bind_defined (setGeometry_defined _ _ _ _) fun _ m1 e1 => ?_
  have h1 := setGeometry_sound (hu b hb) hc e1
  refine (Safe.bind (Safe.modify (P := Sound) fun s hs => ?_) (fun _ => ?_) m1 h1).1
  · exact ⟨hs.coherent.of_eq rfl rfl rfl, geo_congr hs.geo ⟨rfl, rfl, rfl, rfl, rfl⟩⟩
  · exact Safe.forEach fun p _ => Safe.bind (addLayerFromImage_safe cv _ _) fun _ => Safe.pure _

/-! ## ROS costmaps -/

theorem addFromCostmap2D_defined {c : Costmap2D K} (h : c.costs.length = c.sizeX * c.sizeY) (l : String) (m : CostMap K) :
    (addFromCostmap2D c l m).1.Defined := by
  unfold addFromCostmap2D
  split
  · simp
  split
  · simp
  refine bind_defined ?_ fun a s _ => bind_defined (add_defined _ _ _) fun _ _ _ => by simp [Act.pure]
  show (reversedMat c).Defined
  unfold reversedMat
  rw [dif_pos h]
  simp

theorem fromCostmap2DROS_defined {c : Costmap2DROS K} (h : c.costmap.costs.length = c.costmap.sizeX * c.costmap.sizeY)
    (l : String) (m : CostMap K) : (fromCostmap2DROS c l m).1.Defined := by
  refine bind_defined ?_ fun _ s _ => addFromCostmap2D_defined h l s
  exact bind_defined (setGeometry_defined _ _ _ _) fun _ _ _ => by simp [Act.modify]

theorem window_defined {c : Costmap2D K} (h : c.costs.length = c.sizeX * c.sizeY) (origin size : Vec K) :
    (c.window origin size).Defined ∧
      ∀ w, c.window origin size = .ok (some w) → w.costs.length = w.sizeX * w.sizeY := by
  have lt : ∀ p x y, c.worldToMap p = some (x, y) → x < c.sizeX ∧ y < c.sizeY := by
    intro p x y e
    unfold Costmap2D.worldToMap at e
    split at e
    · cases e
    · dsimp only at e
      split at e
      · cases e; assumption
      · cases e
  unfold Costmap2D.window
  split
  · rename_i x0 y0 x1 y1 e0 e1
    have l0 := lt _ _ _ e0
    have l1 := lt _ _ _ e1
    obtain ⟨d, hd, hl, -⟩ := region_get h (x := x0) (y := y0) (nx := x1 - x0) (ny := y1 - y0) (by omega) (by omega)
    rw [hd]
    refine ⟨by simp, fun w hw => ?_⟩
    simp only [Res.ofOption_some, Res.bind_ok, Res.ok.injEq, Option.some.injEq] at hw
    subst hw
    exact hl
  · exact ⟨by simp, fun w hw => by cases hw⟩

theorem fromCostmap2DROSAtRobotPose_defined {c : Costmap2DROS K}
    (h : c.costmap.costs.length = c.costmap.sizeX * c.costmap.sizeY) (g : Vec K) (l : String) (m : CostMap K) :
    (fromCostmap2DROSAtRobotPose c g l m).1.Defined := by
  refine bind_defined ?_ fun b s _ => ?_
  · unfold initAtRobotPose
    cases c.robot with
    | none => simp [Act.pure]
    | some p =>
      refine bind_defined (by simp [Act.modify]) fun _ _ _ => bind_defined (setGeometry_defined _ _ _ _) fun _ _ _ => ?_
      simp [Act.pure]
  · split
    · refine bind_defined ?_ fun _ _ _ => by simp [Act.pure]
      unfold addAtRobotPose
      split
      · simp
      · have hw := window_defined h ⟨s.position.x - s.length.x / 2, s.position.y - s.length.y / 2⟩ s.length
        refine bind_defined hw.1 fun w s' e => ?_
        have hw' := congrArg Prod.fst e
        split
        · simp [Act.pure]
        · exact bind_defined (addFromCostmap2D_defined (hw.2 _ hw') l _) fun _ _ _ => by simp [Act.pure]
    · simp [Act.pure]

/-! ## Inflation -/

theorem inflate_defined {m : CostMap K} (hm : m.Sound) {o : Inflater K} {pop : Inflation.Pop K} {hyp : Nat → Nat → K}
    {radius : K} (ho : UsedAny hyp o) (hpop : PopOk pop) (hn : radiusInCells radius m.resolution < 2 ^ 32 - 1)
    (hh : HypOk hyp (radiusInCells radius m.resolution)) (ls ld : String) (computer : K → Cost) :
    (Inflation.inflate pop hyp ls ld radius computer ⟨o, m, []⟩).1.Defined := by
  have hres := hm.geo.res_pos
  by_cases hls : m.exists ls = true
  · by_cases hrad : o.cellRadius = radiusInCells radius m.resolution
    · obtain ⟨c₀, r₀, hq, hr⟩ := Inflation.UsedAny.ready ho
      rw [Inflation.inflate_computer hres hrad ls ld computer (fun d => c₀ (r₀ / m.resolution * d)) []]
      have hready : Inflation.Ready hyp (fun d => c₀ (r₀ / m.resolution * d)) m.resolution o := by
        refine ⟨hq, .inr ?_⟩
        rcases hr with hr | hr
        · omega
        · refine ⟨hr.1, hr.2.trans ?_⟩
          congr 1
          funext i j
          dsimp only
          rw [← mul_assoc, div_mul_cancel₀ _ hres.ne']
      obtain ⟨st', s, h, -⟩ := Inflation.inflate_run hm.coherent hres hls ld hn hpop hh hq (.inr hready) []
      rw [h]; simp
    · obtain ⟨st', s, h, -⟩ := Inflation.inflate_run (computer := computer) hm.coherent hres hls ld hn hpop hh
        (Inflation.UsedAny.queue ho) (.inl hrad) []
      rw [h]; simp
  · have hnone : m.data ls = none := by simpa [CostMap.exists] using hls
    refine bind_defined (by simp [Act.modify]) fun _ s e => ?_
    obtain rfl : (⟨o, m, []⟩ : Inflation K) = s := congrArg Prod.snd e
    refine bind_defined ?_ fun a s e => ?_
    · simp [Act.read, CostMap.get, hnone]
    · have := congrArg Prod.fst e
      simp [Act.read, CostMap.get, hnone] at this

/-! ## Every call -/

theorem GeoOrNone.sound {m : CostMap K} (h : GeoOrNone m) (hc : m.Coherent) (hr : m.resolution ≠ 0) : m.Sound := by
  rcases h with h | h
  · exact ⟨hc, h⟩
  · exact absurd h.2 hr

theorem held_sound {m : CostMap K} (h : Held List.Nodup Call.Usable m) (hr : m.resolution ≠ 0) : m.Sound :=
  (held_geo (fun _ h => h) h).sound (held_coherent (fun _ h => h) h) hr

theorem call_defined (c : Call K) {m : CostMap K} (hc : m.Coherent) (hm : GeoOrNone m) (hu : c.Usable m) (hs : c.Safe m) :
    (c.run m).1.Defined := by
  have discard : ∀ {α : Type} {f : Act (CostMap K) α}, (f m).1.Defined → (Call.discard f m).1.Defined :=
    fun h => bind_defined h fun _ _ _ => by simp [Act.pure]
  cases c with
  | setGeometry len r p => exact setGeometry_defined len r p m
  | setBasicLayers ls => simp [Call.run, Act.modify]
  | setTimestamp t => simp [Call.run, Act.modify]
  | resetTimestamp => simp [Call.run, Act.modify]
  | setFrameId f => simp [Call.run, Act.modify]
  | setPosition p => simp [Call.run, Act.modify]
  | setStartIndex i => simp [Call.run, Act.modify]
  | add l a => exact add_defined l a m
  | addConst l v => exact add_defined l _ m
  | erase l => exact discard (erase_defined l m)
  | setAt l i v => exact setAt_defined hc l hs v
  | setAtPosition l p v =>
    have hsound := hm.sound hc hs
    simp only [Call.run, setAtPosition]
    rw [show m.getIndex p = ((m.getIndex p).1, m.isInside p) from rfl]
    dsimp only
    split
    · rename_i hin
      exact setAt_defined hc l (getIndex_in hsound.geo hin) v
    · simp
  | clear l => exact clear_defined l m
  | clearBasic =>
    exact (Safe.forEach (P := fun _ => True) (fun l _ s _ => ⟨clear_defined l s, trivial⟩) m trivial).1
  | clearAll => simp [Call.run, Act.modify]
  | move p => exact discard (move_defined (hm.sound hc hs) p)
  | extendToInclude o => exact discard (extendToInclude_safe o m (hm.sound hc hs)).1
  | addDataFrom o e w a ls =>
    exact discard (addDataFrom_safe (held_sound hs.2.1 hs.2.2) e w a ls m (hm.sound hc hs.1)).1
  | inflate obj pop hyp ls ld r f =>
    exact inflate_defined (hm.sound hc hs.1) hs.2.1 hs.2.2.1 hs.2.2.2.1 hs.2.2.2.2 ls ld f
  | deflate k ls ld => exact deflate_defined hc k ls ld
  | fromMessage msg => exact discard (fromMessage_defined hs m)
  | addLayerFromImage cv img l => exact discard (addLayerFromImage_safe cv img l m (hm.sound hc hs)).1
  | fromImageBundle cv rf files => exact fromImageBundle_defined cv hc hu
  | fromCostmap2DROS c l => exact discard (fromCostmap2DROS_defined hs l m)
  | fromCostmap2DROSAtRobotPose c g l => exact discard (fromCostmap2DROSAtRobotPose_defined hs g l m)

/-! ## Calls that only read -/

theorem getSubmap_defined {m : CostMap K} (hm : m.Sound) (p len : Vec K) (i : Idx) : (m.getSubmap p len i).Defined := by
  rcases getSubmap_spec hm.geo hm.coherent p len i with ⟨-, e⟩ | ⟨s, e, -⟩ <;> rw [e] <;> simp

theorem atPosition_defined {m : CostMap K} (hm : m.Sound) (l : String) (p : Vec K) : (m.atPosition l p).Defined := by
  unfold atPosition
  rw [show m.getIndex p = ((m.getIndex p).1, m.isInside p) from rfl]
  dsimp only
  split
  · rename_i hin
    exact at_defined hm.coherent l (getIndex_in hm.geo hin)
  · simp

theorem getPosition3_defined {m : CostMap K} (hc : m.Coherent) (l : String) {i : Idx} (hi : i.In m.size) :
    (m.getPosition3 l i).Defined := by
  unfold getPosition3
  refine (isValidLayer_defined hc hi l).bind fun v _ => ?_
  split
  · simp
  · rw [getPosition_eq hi]
    exact (at_defined hc l hi).bind fun _ _ => by simp

theorem getVector_defined {m : CostMap K} (hc : m.Coherent) (pre : String) {i : Idx} (hi : i.In m.size) :
    (m.getVector pre i).Defined := by
  unfold getVector
  refine (isValidLayers_defined hc hi _).bind fun v _ => ?_
  split
  · simp
  · exact (at_defined hc _ hi).bind fun _ _ => (at_defined hc _ hi).bind fun _ _ => (at_defined hc _ hi).bind fun _ _ => by simp

theorem stampOf_defined (t : Nat) : (stampOf t).Defined := by
  unfold stampOf
  split <;> simp

theorem layerArrays_defined (m : CostMap K) : ∀ ls, (m.layerArrays ls).Defined
  | [] => by simp [layerArrays]
  | l :: ls => (get_defined m l).bind fun _ _ => (layerArrays_defined m ls).bind fun _ _ => by simp

theorem toMessage_defined (m : CostMap K) : m.toMessage.Defined :=
  (stampOf_defined _).bind fun _ _ => (layerArrays_defined m _).bind fun _ _ => by simp

theorem saveLayers_defined {m : CostMap K} (hc : m.Coherent) :
    ∀ ls (images : String → Option FileImage), (m.saveLayers ls images).Defined
  | [], _ => by simp [saveLayers]
  | l :: ls, images => by
    unfold saveLayers
    refine (get_defined m l).bind fun a ha => ?_
    have hd : (a.rows : Int) = m.size.x ∧ (a.cols : Int) = m.size.y := by
      unfold CostMap.get at ha
      split at ha
      · rename_i b hb; cases ha; exact hc.dims _ _ hb
      · cases ha
    rw [if_pos hd]
    exact saveLayers_defined hc ls _

theorem toImageBundle_defined {m : CostMap K} (hc : m.Coherent) (txt : K → K) (files : Files K) :
    (m.toImageBundle txt files).Defined :=
  (saveLayers_defined hc _ _).bind fun _ _ => by simp

theorem toOccupancyGrid_defined {m : CostMap K} (hm : m.Sound) (rf : K → K) (l : String) (old : List Int) :
    (m.toOccupancyGrid rf l old).Defined := by
  unfold toOccupancyGrid
  refine (stampOf_defined _).bind fun t _ => ?_
  dsimp only
  have h : Safe (fun d : List Int => d.length = (m.size.x * m.size.y).toNat)
      (Act.forEach (m.occupancyCell l ((m.size.x * m.size.y).toNat : Int)) m.cells) := by
    refine Safe.forEach fun i hi => ?_
    rw [mem_cells hm.geo.start] at hi
    refine Safe.bind (Safe.lift (at_defined hm.coherent l hi)) fun c =>
      Safe.bind (Safe.lift (by rw [occupancyFloat_eq]; simp)) fun v d hd => ?_
    have hsz : (0 : Int) ≤ m.size.x * m.size.y := mul_nonneg hm.geo.size_x.le hm.geo.size_y.le
    have hr := rowMajor_range (w := m.size.x) (h := m.size.y) (a := m.size.x - 1 - i.x) (b := m.size.y - 1 - i.y)
      (by have := hi.2.1; omega) (by have := hi.1; omega) (by have := hi.2.2.2; omega) (by have := hi.2.2.1; omega)
    rw [← occupancyIndex] at hr
    unfold setElem
    rw [Int.toNat_of_nonneg hsz, if_pos ⟨hr.1, by rw [hd, Int.toNat_of_nonneg hsz]; exact hr.2⟩]
    exact ⟨by simp, by simpa using hd⟩
  have h := (h (resized old (m.size.x * m.size.y).toNat) (resized_length _ _)).1
  rw [show CostMapIter.new m = CostMapIter.newWith clamp1 m from rfl,
    Act.forIter_eq _ (costMapIter_visits hm.geo.start clamp1) (m.size.x.toNat * m.size.y.toNat + 2)
    (by rw [List.length_map, rowMajor_length]; omega)]
  rw [show m.cells = List.map (fun u => bufferIdx u m.size m.startIndex) (rowMajor m.size) from rfl] at h
  generalize Act.forEach _ (List.map _ _) _ = q at h ⊢
  obtain ⟨r, d⟩ := q
  cases r with
  | ok _ => simp
  | thrown _ => simp
  | assertFail => simp
  | ub => exact absurd rfl h.1
  | outOfFuel => exact absurd rfl h.2

end CostMap

theorem gridMapAdd_defined (l : String) (a : Mat (Option ℚ)) (g : GridMap K) : (GridMap.add l a g).1.Defined := by
  unfold GridMap.add
  split
  · simp
  split
  · simp
  dsimp only
  split <;> simp

theorem toGridMap_defined (m : CostMap K) (g : GridMap K) : (toGridMap m g).1.Defined := by
  refine (Safe.bind (P := fun _ => True) (fun s _ => ⟨?_, trivial⟩) (fun _ => Safe.bind (Safe.modify fun _ _ => trivial) fun _ =>
    Safe.forEach fun l _ => Safe.bind (Safe.lift (CostMap.get_defined m l)) fun a s _ => ⟨gridMapAdd_defined _ _ s, trivial⟩)
    g trivial).1
  unfold GridMap.setGeometry
  split
  · simp
  split
  · simp
  split <;> simp

end CostMapModel

import Verif.Model.History
import Verif.Spec.History
import Verif.Lemmas.Extend
import Verif.Lemmas.Submap
import Verif.Lemmas.Load

/-! # What every call keeps -/

set_option linter.unusedSectionVars false

namespace CostMapModel
variable {K : Type} [Field K] [LinearOrder K] [IsStrictOrderedRing K] [FloorRing K]

namespace Act
variable {σ α β τ : Type} {P : σ → Prop}

theorem Keeps.modify {f : σ → σ} (h : ∀ s, P s → P (f s)) : Keeps P (Act.modify f) := h

theorem Keeps.discard {f : Act σ α} (h : Keeps P f) : Keeps P (Call.discard f) := h.bind fun _ => Keeps.pure ()

theorem Keeps.ite {c : Prop} [Decidable c] {f g : Act σ α} (hf : Keeps P f) (hg : Keeps P g) :
    Keeps P (if c then f else g) := by
  split <;> assumption

/-- A sequence of calls of which the first establishes what the others keep. -/
theorem bind_keeps {f : Act σ α} {g : α → Act σ β} {s : σ} (hf : P (f s).2) (hg : ∀ a, Keeps P (g a)) :
    P (Act.bind f g s).2 := by
  unfold Act.bind
  split <;> rename_i h <;> rw [h] at hf
  · exact hg _ _ hf
  all_goals exact hf

end Act

open Act (Keeps)

namespace CostMap

/-- A property of maps that does not depend on the costs they hold nor on the frame, the time stamp and the basic
layers, and is kept when layers are added. -/
structure Stable (P : CostMap K → Prop) : Prop where
  shape : ∀ {m m'}, SameShape m m' → P m → P m'
  info : ∀ {m m' : CostMap K}, m'.layers = m.layers → m'.data = m.data → SameGeometry m m' → P m → P m'
  add : ∀ l a, Keeps P (CostMap.add l a)

namespace Stable
variable {P : CostMap K → Prop} (h : Stable P)
include h

theorem keeps {α : Type} {f : Act (CostMap K) α} (hf : KeepsShape f) : Keeps P f := fun m hm => h.shape (hf m) hm

theorem addConst (l : String) (v : Cost) : Keeps P (CostMap.addConst l v) := fun m hm => h.add l _ m hm

theorem forCells {body : Idx → Act (CostMap K) Unit} (hb : ∀ i, Keeps P (body i)) : Keeps P (CostMap.forCells body) :=
  fun m hm => Keeps.forIter _ hb _ _ m hm

theorem addMissing (l : String) : Keeps P (CostMap.addMissing l) := by
  intro m hm
  unfold CostMap.addMissing
  split
  · exact hm
  · exact h.addConst l _ m hm

theorem mergeLayer (o : CostMap K) (i j : Idx) (l : String) : Keeps P (CostMap.mergeLayer o i j l) :=
  (Keeps.lift _).bind fun _ => Keeps.ite (Keeps.pure ()) ((Keeps.lift _).bind fun _ => h.keeps (setAt_shape _ _ _))

theorem mergeCell (o : CostMap K) (w : Bool) (ls : List String) (i : Idx) : Keeps P (CostMap.mergeCell o w ls i) := by
  refine (Keeps.read _).bind fun v => Keeps.ite (Keeps.pure ()) ?_
  intro m hm
  dsimp only
  split
  · exact hm
  · split
    · exact hm
    · exact Keeps.forEach (h.mergeLayer o i _) ls m hm

theorem restoreCell (o : CostMap K) (i : Idx) : Keeps P (CostMap.restoreCell o i) := by
  refine (Keeps.read _).bind fun v => Keeps.ite (Keeps.pure ()) ?_
  intro m hm
  dsimp only
  split
  · exact hm
  · split
    · exact hm
    · exact Keeps.forEach (fun l => (Keeps.lift _).bind fun _ => h.keeps (setAt_shape l i _)) _ m hm

theorem addDataFrom (he : ∀ o, Keeps P (CostMap.extendToInclude o)) (o : CostMap K) (e w a : Bool) (ls : List String) :
    Keeps P (CostMap.addDataFrom o e w a ls) := by
  unfold CostMap.addDataFrom
  exact (Keeps.ite (he o) (Keeps.pure _)).bind fun _ =>
    (Keeps.forEach h.addMissing _).bind fun _ => (h.forCells (h.mergeCell o w _)).bind fun _ => Keeps.pure _

theorem deflate (k : Bool) (ls ld : String) : Keeps P (CostMap.deflate k ls ld) :=
  (Keeps.read _).bind fun _ => (h.addConst _ _).bind fun _ =>
    Keeps.forEach (fun _ => (Keeps.lift _).bind fun _ => h.keeps (setAt_shape _ _ _)) _

theorem imageCell (cv : Cv) (img : Image) (l : String) (i : Idx) : Keeps P (CostMap.imageCell cv img l i) := by
  refine (Keeps.lift _).bind fun s => ?_
  split
  · exact Keeps.pure _
  · exact (Keeps.lift _).bind fun _ => h.keeps (setAt_shape _ _ _)

theorem addLayerFromImage (cv : Cv) (img : Image) (l : String) : Keeps P (CostMap.addLayerFromImage cv img l) := by
  refine Keeps.ite (Keeps.pure _) ((h.addConst _ _).bind fun _ => ?_)
  intro m hm
  dsimp only
  split
  · exact hm
  · exact ((h.forCells (h.imageCell cv img l)).bind fun _ => Keeps.pure _) m hm

theorem addFromCostmap2D (c : Costmap2D K) (l : String) : Keeps P (CostMap.addFromCostmap2D c l) := by
  intro m hm
  unfold CostMap.addFromCostmap2D
  split
  · exact hm
  split
  · exact hm
  exact ((Keeps.lift _).bind fun _ => (h.add _ _).bind fun _ => Keeps.pure _) m hm

theorem addAtRobotPose (c : Costmap2DROS K) (l : String) : Keeps P (CostMap.addAtRobotPose c l) := by
  intro m hm
  unfold CostMap.addAtRobotPose
  split
  · exact hm
  refine Keeps.bind (Keeps.lift _) (fun w => ?_) m hm
  split
  · exact Keeps.pure _
  · exact (h.addFromCostmap2D _ _).bind fun _ => Keeps.pure _

end Stable
end CostMap

namespace Inflation

theorem onMap_keeps {α : Type} {P : CostMap K → Prop} {f : Act (CostMap K) α} (h : Keeps P f) :
    Keeps (fun s : Inflation K => P s.map) (onMap f) := fun s hs => h s.map hs

variable {P : CostMap K → Prop} {ls ld : String} (h : CostMap.Stable P)
include h

theorem enqueue_keeps (c src : Idx) : Keeps (fun s : Inflation K => P s.map) (enqueue ls ld c src) := by
  unfold enqueue
  refine (Keeps.read _).bind fun _ => Keeps.ite (Keeps.pure _) ?_
  refine (Keeps.read _).bind fun _ => Keeps.get.bind fun _ => Keeps.ite (Keeps.pure _) ?_
  refine (Keeps.read _).bind fun _ => (Keeps.read _).bind fun _ =>
    (onMap_keeps (h.keeps (CostMap.setAt_shape _ _ _))).bind fun _ => ?_
  exact Keeps.modify fun _ h => h

theorem seed_keeps (c : Idx) : Keeps (fun s : Inflation K => P s.map) (seed ls ld c) :=
  (Keeps.read _).bind fun _ => Keeps.ite (enqueue_keeps h _ _) (Keeps.pure _)

theorem visit_keeps (c src : Idx) : Keeps (fun s : Inflation K => P s.map) (visit ls ld c src) := by
  unfold visit
  refine Keeps.get.bind fun _ => (Keeps.ite (enqueue_keeps h _ _) (Keeps.pure _)).bind fun _ => ?_
  refine (Keeps.ite (enqueue_keeps h _ _) (Keeps.pure _)).bind fun _ => ?_
  refine (Keeps.ite (enqueue_keeps h _ _) (Keeps.pure _)).bind fun _ => ?_
  exact Keeps.ite (enqueue_keeps h _ _) (Keeps.pure _)

theorem spread_keeps (pop : Pop K) : ∀ n, Keeps (fun s : Inflation K => P s.map) (spread pop ls ld n)
  | 0 => by intro s hs; unfold spread; split <;> exact hs
  | n + 1 => by
    intro s hs
    unfold spread
    split
    · exact hs
    split
    · exact hs
    · exact Keeps.bind (P := fun s : Inflation K => P s.map) (visit_keeps h _ _) (fun _ => spread_keeps pop n) _ hs

theorem inflate_keeps (pop : Pop K) (hyp : Nat → Nat → K) (radius : K)
    (computer : K → Cost) : Keeps (fun s : Inflation K => P s.map) (inflate pop hyp ls ld radius computer) := by
  unfold inflate
  refine Keeps.bind (Keeps.modify fun _ h => ?_) fun _ => ?_
  · exact h
  refine (Keeps.read _).bind fun _ => (onMap_keeps (h.add _ _)).bind fun _ => ?_
  refine Keeps.bind (fun s hs => ?_) fun _ => (Keeps.forEach (seed_keeps h) _).bind fun _ =>
    Keeps.get.bind fun _ => spread_keeps h pop _
  unfold prepare
  dsimp only
  split
  · exact hs
  · split <;> exact hs

end Inflation

namespace CostMap

/-! ## Coherence -/

theorem coherent_stable : Stable (Coherent (K := K)) where
  shape h hc := h.coherent hc
  info h1 h2 h3 hc := by
    refine ⟨?_, ?_, ?_⟩
    · rw [h1]; exact hc.nodup
    · rw [h1, h2]; exact hc.mem_iff
    · rw [h2, h3.size]; exact hc.dims
  add := add_coherent

theorem Coherent.of_eq {m m' : CostMap K} (h : m.Coherent) (h1 : m'.layers = m.layers) (h2 : m'.data = m.data)
    (h3 : m'.size = m.size) : m'.Coherent := by
  refine ⟨?_, ?_, ?_⟩
  · rw [h1]; exact h.nodup
  · rw [h1, h2]; exact h.mem_iff
  · rw [h2, h3]; exact h.dims

theorem extendToInclude_coherent (o : CostMap K) : Keeps Coherent (extendToInclude o) := by
  intro m hm
  unfold extendToInclude
  dsimp only
  split
  · exact ((setGeometry_coherent _ _ _).bind fun _ => Keeps.bind (fun s (hs : s.Coherent) => hs.of_eq rfl rfl rfl) fun _ =>
      (coherent_stable.forCells (coherent_stable.restoreCell m)).bind fun _ => Keeps.pure _) m hm
  · exact hm

theorem fromMessage_coherent (msg : CostMapMsg K) : Keeps Coherent (fromMessage msg) := by
  unfold fromMessage
  refine Keeps.bind (Keeps.modify fun _ h => ?_) fun _ => ?_
  · exact h.of_eq rfl rfl rfl
  refine (setGeometry_coherent _ _ _).bind fun _ => Keeps.ite (Keeps.pure _) ?_
  refine (Keeps.forEach (fun _ => (Keeps.lift _).bind fun _ => add_coherent _ _) _).bind fun _ => ?_
  refine Keeps.bind (Keeps.modify fun _ h => ?_) fun _ => Keeps.pure _
  exact h.of_eq rfl rfl rfl

theorem fromImageBundle_coherent (cv : Cv) (rf : K → K) (files : Files K) :
    Keeps Coherent (fromImageBundle cv rf files) := by
  refine (Keeps.lift _).bind fun _ => (setGeometry_coherent _ _ _).bind fun _ => ?_
  refine Keeps.bind (Keeps.modify fun _ h => ?_) fun _ => ?_
  · exact h.of_eq rfl rfl rfl
  · exact Keeps.forEach (fun _ => (coherent_stable.addLayerFromImage _ _ _).bind fun _ => Keeps.pure _) _

theorem initFromCostmap2D_coherent (c : Costmap2DROS K) : Keeps Coherent (initFromCostmap2D c) := by
  refine (setGeometry_coherent _ _ _).bind fun _ => Keeps.modify fun _ h => ?_
  exact h.of_eq rfl rfl rfl

theorem initAtRobotPose_coherent (c : Costmap2DROS K) (g : Vec K) : Keeps Coherent (initAtRobotPose c g) := by
  unfold initAtRobotPose
  split
  · exact Keeps.pure _
  · refine Keeps.bind (Keeps.modify fun _ h => ?_) fun _ => ?_
    · exact h.of_eq rfl rfl rfl
    · exact (setGeometry_coherent _ _ _).bind fun _ => Keeps.pure _

theorem call_coherent (c : Call K) : Keeps Coherent c.run := by
  have st := coherent_stable (K := K)
  cases c with
  | setGeometry len r p => exact setGeometry_coherent len r p
  | setBasicLayers ls => exact Keeps.modify fun _ h => h.of_eq rfl rfl rfl
  | setTimestamp t => exact Keeps.modify fun _ h => h.of_eq rfl rfl rfl
  | resetTimestamp => exact Keeps.modify fun _ h => h.of_eq rfl rfl rfl
  | setFrameId f => exact Keeps.modify fun _ h => h.of_eq rfl rfl rfl
  | setPosition p => exact Keeps.modify fun _ h => h.of_eq rfl rfl rfl
  | setStartIndex i => exact Keeps.modify fun _ h => h.of_eq rfl rfl rfl
  | add l a => exact st.add l a
  | addConst l v => exact st.addConst l v
  | erase l => exact (erase_coherent l).discard
  | setAt l i v => exact st.keeps (setAt_shape l i v)
  | setAtPosition l p v => exact st.keeps (setAtPosition_shape l p v)
  | clear l => exact st.keeps (clear_shape l)
  | clearBasic => exact st.keeps clearBasic_shape
  | clearAll => exact Keeps.modify fun m h => (SameShape.clearAll m).coherent h
  | move p => exact (moveWith_coherent _ p).discard
  | extendToInclude o => exact (extendToInclude_coherent o).discard
  | addDataFrom o e w a ls => exact (st.addDataFrom extendToInclude_coherent o e w a ls).discard
  | inflate obj pop hyp ls ld r f => intro m hm; exact Inflation.inflate_keeps st pop hyp r f ⟨obj, m, []⟩ hm
  | deflate k ls ld => exact st.deflate k ls ld
  | fromMessage msg => exact (fromMessage_coherent msg).discard
  | addLayerFromImage cv img l => exact (st.addLayerFromImage cv img l).discard
  | fromImageBundle cv rf files => exact fromImageBundle_coherent cv rf files
  | fromCostmap2DROS c l =>
    exact ((initFromCostmap2D_coherent c).bind fun _ => st.addFromCostmap2D _ _).discard
  | fromCostmap2DROSAtRobotPose c g l =>
    exact ((initAtRobotPose_coherent c g).bind fun _ => Keeps.ite
      ((st.addAtRobotPose c l).bind fun _ => Keeps.pure _) (Keeps.pure _)).discard

/-! ## Submaps -/

/-- Coherent, with the given layers. -/
def CoherentWith (ls : List String) (m : CostMap K) : Prop := m.Coherent ∧ m.layers = ls

theorem copyRegion_coherent {ls : List String} {l : String} (hl : l ∈ ls) (a : Mat Cost) (r : BufferRegion) :
    Keeps (CoherentWith (K := K) ls) (copyRegion l a r) := by
  intro s hs
  unfold copyRegion
  dsimp only
  split
  · exact hs
  split
  · exact hs
  rename_i d hd
  have hsome : (s.data l).isSome := (hs.1.mem_iff l).1 (hs.2 ▸ hl)
  obtain ⟨b, hb⟩ := Option.isSome_iff_exists.1 hsome
  rw [hb, Option.getD_some] at hd
  have hdim : d.rows = b.rows ∧ d.cols = b.cols := by
    unfold copyBlock at hd
    split at hd
    · cases hd; exact ⟨rfl, rfl⟩
    · cases hd
  have := SameShape.setData (m := s) hb hdim.1 hdim.2
  exact ⟨this.coherent hs.1, this.layers.trans hs.2⟩

theorem copyLayers_coherent (m : CostMap K) (regs : List BufferRegion) (ls : List String) :
    ∀ ks : List String, (∀ l ∈ ks, l ∈ ls) → Keeps (CoherentWith (K := K) ls) (Act.forEach (m.copyLayer regs) ks)
  | [], _ => Keeps.pure _
  | k :: ks, h => by
    refine Keeps.bind ?_ fun _ => copyLayers_coherent m regs ls ks fun l hl => h l (List.mem_cons_of_mem _ hl)
    unfold copyLayer
    split
    · exact Keeps.pure _
    · exact Keeps.forEach (fun r => copyRegion_coherent (h k (List.mem_cons_self ..)) _ r) regs

theorem setGeometry_layers (len : Vec K) (r : K) (p : Vec K) (m : CostMap K) :
    (setGeometry len r p m).2.layers = m.layers := by
  unfold setGeometry
  split
  · rfl
  split
  · rfl
  split <;> rfl

theorem getSubmap_coherent {m s : CostMap K} (hm : m.Coherent) {p len : Vec K} {i j : Idx} {b : Bool}
    (e : m.getSubmap p len i = .ok (s, j, b)) : s.Coherent := by
  have hnew := new_coherent (K := K) hm.nodup
  unfold getSubmap at e
  dsimp only at e
  split at e
  · cases e; exact hnew
  rename_i info _
  generalize hs0 : (((CostMap.new (K := K) m.layers).setBasicLayers m.basicLayers).setTimestamp
    m.timestamp).setFrameId m.frameId = s0 at e
  have h0 : CoherentWith m.layers s0 := by
    subst hs0; exact ⟨Coherent.of_eq hnew rfl rfl rfl, rfl⟩
  have h1 := setGeometry_coherent info.length m.resolution info.position s0 h0.1
  have h2 := setGeometry_layers info.length m.resolution info.position s0
  generalize setGeometry info.length m.resolution info.position s0 = q at e h1 h2
  obtain ⟨r, s1⟩ := q
  cases r <;> try cases e
  dsimp only at e h1 h2
  split at e
  · cases e; exact hnew
  rename_i regs _
  have h3 := copyLayers_coherent m regs m.layers m.layers (fun _ h => h) (s1.setStartIndex 0)
    ⟨h1.of_eq rfl rfl rfl, h2.trans h0.2⟩
  generalize Act.forEach (m.copyLayer regs) m.layers (s1.setStartIndex 0) = q at e h3
  obtain ⟨r, s2⟩ := q
  cases r <;> cases e
  exact h3.1

theorem held_coherent {names : List String → Prop} (hn : ∀ ls, names ls → ls.Nodup) {ok : CostMap K → Call K → Prop}
    {m : CostMap K} (h : Held names ok m) : m.Coherent := by
  induction h with
  | new h => exact new_coherent (hn _ h)
  | returned c _ _ e ih => have := call_coherent c _ ih; rwa [e] at this
  | threw c x _ _ e ih => have := call_coherent c _ ih; rwa [e] at this
  | submap p len i j b _ e ih => exact getSubmap_coherent ih e

/-! ## Geometry -/

/-- A map without geometry, or with a usable one. -/
def GeoOrNone (m : CostMap K) : Prop := m.Geo ∨ (m.size = 0 ∧ m.resolution = 0)

theorem add_geometry (l : String) (a : Mat Cost) (m : CostMap K) : SameGeometry m (add l a m).2 := by
  unfold add
  split
  · exact ⟨rfl, rfl, rfl, rfl, rfl⟩
  split
  · exact ⟨rfl, rfl, rfl, rfl, rfl⟩
  split <;> exact ⟨rfl, rfl, rfl, rfl, rfl⟩

theorem erase_geometry (l : String) (m : CostMap K) : SameGeometry m (erase l m).2 := by
  unfold erase
  split
  · exact ⟨rfl, rfl, rfl, rfl, rfl⟩
  dsimp only
  split
  · exact ⟨rfl, rfl, rfl, rfl, rfl⟩
  split <;> exact ⟨rfl, rfl, rfl, rfl, rfl⟩

theorem GeoOrNone.congr {m m' : CostMap K} (h : SameGeometry m m') : GeoOrNone m → GeoOrNone m'
  | .inl hg => .inl (geo_congr hg h)
  | .inr ⟨h1, h2⟩ => .inr ⟨h.size.trans h1, h.resolution.trans h2⟩

theorem geo_stable : Stable (GeoOrNone (K := K)) where
  shape h := GeoOrNone.congr h.geo
  info _ _ h := GeoOrNone.congr h
  add l a m := GeoOrNone.congr (add_geometry l a m)

theorem round_gt {x : K} {n : Nat} (h : (n : K) + 1 / 2 ≤ x) : (n : Int) + 1 ≤ roundHalfAway x := by
  have : 0 ≤ x := by
    have : (0 : K) ≤ n := Nat.cast_nonneg n
    linarith [show (0 : K) < 1 / 2 by norm_num]
  unfold roundHalfAway
  rw [if_pos this, Int.le_floor]
  push_cast
  linarith

theorem round_pos {x : K} (h : 1 / 2 ≤ x) : 0 < roundHalfAway x := by
  have := round_gt (n := 0) (x := x) (by simpa using h)
  omega

/-- `setGeometry` with at least half a cell: the map has a usable geometry afterwards, or the call failed an assertion
and did nothing. -/
theorem setGeometry_usable {len : Vec K} {r : K} (p : Vec K) (h : HalfCell len r) {m : CostMap K}
    (hm : GeoOrNone m) : GeoOrNone (setGeometry len r p m).2 := by
  unfold setGeometry
  split
  · exact hm
  split
  · exact hm
  split
  · exact hm
  rename_i h1 h2 h3
  simp only [not_not] at h1 h2 h3
  have hx : 0 < roundHalfAway (len.x / r) := round_pos (by rw [le_div_iff₀ h3]; linarith [h.1])
  have hy : 0 < roundHalfAway (len.y / r) := round_pos (by rw [le_div_iff₀ h3]; linarith [h.2])
  exact .inl ⟨h3, hx, hy, rfl, rfl, ⟨le_refl _, hx, le_refl _, hy⟩⟩

theorem setGeometry_zero (len : Vec K) {r : K} (hr : r = 0) (p : Vec K) (m : CostMap K) :
    setGeometry len r p m = (.assertFail, m) := by
  unfold setGeometry
  subst hr
  simp

theorem extendToInclude_geo (o : CostMap K) : Keeps GeoOrNone (extendToInclude o) := by
  rintro m (hm | hm)
  · rw [extendToInclude_eq hm]
    split
    · exact (geo_stable.forCells (geo_stable.restoreCell m)).bind (fun _ => Keeps.pure _) _
        (.inl (extEmpty_geo hm o))
    · exact .inl hm
  · unfold extendToInclude
    dsimp only
    split
    · unfold Act.bind
      rw [setGeometry_zero _ hm.2]
      exact .inr hm
    · exact .inr hm

theorem move_geo (p : Vec K) : Keeps GeoOrNone (move p) := by
  rintro m hm
  refine Keeps.bind (P := fun s => GeoOrNone s ∧ s.size = m.size)
    (fun s hs => ⟨geo_stable.keeps (dropAxis_shape _ _ _) s hs.1, (dropAxis_shape _ _ _ s).geo.size.trans hs.2⟩)
    (fun _ => Keeps.bind (P := fun s => GeoOrNone s ∧ s.size = m.size)
    (fun s hs => ⟨geo_stable.keeps (dropAxis_shape _ _ _) s hs.1, (dropAxis_shape _ _ _ s).geo.size.trans hs.2⟩)
    (fun _ s hs => ⟨?_, hs.2⟩)) m ⟨hm, rfl⟩ |>.1
  rcases hs.1 with hg | hg
  · have h1 := clamp1_range (i := (s.startIndex + indexShift (p - m.position) m.resolution).x) hg.size_x
    have h2 := clamp1_range (i := (s.startIndex + indexShift (p - m.position) m.resolution).y) hg.size_y
    exact .inl ⟨hg.res_pos, hg.size_x, hg.size_y, hg.len_x, hg.len_y, ⟨h1.1, h1.2, h2.1, h2.2⟩⟩
  · exact .inr hg

theorem fromMessage_geo (msg : CostMapMsg K) {m : CostMap K} (hm : GeoOrNone m)
    (h : Call.Usable m (.fromMessage msg)) : GeoOrNone (fromMessage msg m).2 := by
  by_cases hok : msg.GeometryOk
  · have hx := round_gt (x := msg.lengthX / msg.resolution) (n := msg.outerStartIndex.toNat) <| by
      rw [le_div_iff₀ hok.res]; exact h.1
    have hy := round_gt (x := msg.lengthY / msg.resolution) (n := msg.innerStartIndex.toNat) <| by
      rw [le_div_iff₀ hok.res]; exact h.2
    have hb : (blank msg m).Geo := by
      have px : 0 < msg.size.x := lt_of_lt_of_le (by omega) hx
      have py : 0 < msg.size.y := lt_of_lt_of_le (by omega) hy
      exact ⟨hok.res, px, py, rfl, rfl, ⟨le_refl _, px, le_refl _, py⟩⟩
    unfold fromMessage
    rw [Act.bind_ok (show Act.modify _ m = (.ok (), _) from rfl), Act.bind_ok (blank_eq hok m)]
    split
    · exact .inl hb
    · have hk : Keeps (fun s : CostMap K => s.Geo ∧ s.size = msg.size) (Act.bind (Act.forEach addFromArray
          (msg.layers.zip msg.data)) fun _ => Act.bind (Act.modify fun m => (m.setBasicLayers msg.basicLayers).setStartIndex
          ⟨msg.outerStartIndex.toNat, msg.innerStartIndex.toNat⟩) fun _ => Act.pure true) := by
        refine Keeps.bind (Keeps.forEach (fun p => (Keeps.lift _).bind fun a s hs => ?_) _) fun _ =>
          Keeps.bind (Keeps.modify fun s hs => ?_) fun _ => Keeps.pure _
        · have := add_geometry p.1 a s
          exact ⟨geo_congr hs.1 this, this.size.trans hs.2⟩
        · refine ⟨⟨hs.1.res_pos, hs.1.size_x, hs.1.size_y, hs.1.len_x, hs.1.len_y, ?_⟩, hs.2⟩
          show Idx.In ⟨_, _⟩ s.size
          rw [hs.2]
          exact ⟨Int.natCast_nonneg _, Int.lt_of_add_one_le hx, Int.natCast_nonneg _, Int.lt_of_add_one_le hy⟩
      exact .inl (hk (blank msg m) ⟨hb, rfl⟩).1
  · rw [fromMessage_geometry hok]
    exact GeoOrNone.congr (m := m) ⟨rfl, rfl, rfl, rfl, rfl⟩ hm

theorem fromImageBundle_geo (cv : Cv) (rf : K → K) (files : Files K) {m : CostMap K} (hm : GeoOrNone m)
    (h : Call.Usable m (.fromImageBundle cv rf files)) : GeoOrNone (fromImageBundle cv rf files m).2 := by
  unfold fromImageBundle
  cases hr : readInfo rf files.yaml with
  | ok b =>
    rw [Act.bind_ok (show Act.lift (.ok b) m = (.ok b, m) from rfl)]
    refine Act.bind_keeps (P := GeoOrNone) (setGeometry_usable b.centre (h b hr) hm) fun _ => ?_
    refine Keeps.bind (Keeps.modify fun s h => ?_) fun _ => ?_
    · exact GeoOrNone.congr (m := s) ⟨rfl, rfl, rfl, rfl, rfl⟩ h
    · exact Keeps.forEach (fun _ => (geo_stable.addLayerFromImage _ _ _).bind fun _ => Keeps.pure _) _
  | thrown e => exact hm
  | assertFail => exact hm
  | ub => exact hm
  | outOfFuel => exact hm

theorem fromCostmap2DROS_geo (c : Costmap2DROS K) (l : String) {m : CostMap K} (hm : GeoOrNone m)
    (h : 0 < c.costmap.sizeX ∧ 0 < c.costmap.sizeY) : GeoOrNone (fromCostmap2DROS c l m).2 := by
  refine Act.bind_keeps (P := GeoOrNone) ?_ fun _ => geo_stable.addFromCostmap2D _ _
  by_cases hr : 0 < c.costmap.resolution
  · refine Act.bind_keeps (P := GeoOrNone) (setGeometry_usable _ ⟨?_, ?_⟩ hm) fun _ => Keeps.modify fun s h => ?_
    · have : (1 : K) ≤ c.costmap.sizeX := by exact_mod_cast h.1
      dsimp only
      nlinarith
    · have : (1 : K) ≤ c.costmap.sizeY := by exact_mod_cast h.2
      dsimp only
      nlinarith
    · exact GeoOrNone.congr (m := s) ⟨rfl, rfl, rfl, rfl, rfl⟩ h
  · unfold initFromCostmap2D Act.bind
    have : ∀ len p, setGeometry len c.costmap.resolution p m = (.assertFail, m) := by
      intro len p
      unfold setGeometry
      simp [hr]
    rw [this]
    exact hm

theorem fromCostmap2DROSAtRobotPose_geo (c : Costmap2DROS K) (g : Vec K) (l : String) {m : CostMap K} (hm : GeoOrNone m)
    (h : HalfCell g c.costmap.resolution) : GeoOrNone (fromCostmap2DROSAtRobotPose c g l m).2 := by
  refine Act.bind_keeps (P := GeoOrNone) ?_ fun _ => Keeps.ite
    ((geo_stable.addAtRobotPose c l).bind fun _ => Keeps.pure _) (Keeps.pure _)
  unfold initAtRobotPose
  cases c.robot with
  | none => exact hm
  | some p =>
    refine Act.bind_keeps (P := GeoOrNone) (GeoOrNone.congr (m := m) ⟨rfl, rfl, rfl, rfl, rfl⟩ hm) fun _ => ?_
    exact Keeps.bind (fun s hs => setGeometry_usable _ h hs) fun _ => Keeps.pure _

theorem call_geo (c : Call K) {m : CostMap K} (hm : GeoOrNone m) (hu : c.Usable m) : GeoOrNone (c.run m).2 := by
  have st := geo_stable (K := K)
  have hsame : ∀ {m' : CostMap K}, SameGeometry m m' → GeoOrNone m' := fun h => GeoOrNone.congr h hm
  cases c with
  | setGeometry len r p => exact setGeometry_usable p hu hm
  | setBasicLayers ls => exact hsame ⟨rfl, rfl, rfl, rfl, rfl⟩
  | setTimestamp t => exact hsame ⟨rfl, rfl, rfl, rfl, rfl⟩
  | resetTimestamp => exact hsame ⟨rfl, rfl, rfl, rfl, rfl⟩
  | setFrameId f => exact hsame ⟨rfl, rfl, rfl, rfl, rfl⟩
  | setPosition p =>
    rcases hm with hg | hg
    · exact .inl ⟨hg.res_pos, hg.size_x, hg.size_y, hg.len_x, hg.len_y, hg.start⟩
    · exact .inr hg
  | setStartIndex i =>
    rcases hm with hg | hg
    · exact .inl ⟨hg.res_pos, hg.size_x, hg.size_y, hg.len_x, hg.len_y, hu⟩
    · exact .inr hg
  | add l a => exact st.add l a m hm
  | addConst l v => exact st.addConst l v m hm
  | erase l =>
    refine Act.bind_keeps (P := GeoOrNone) ?_ (fun _ => Keeps.pure _)
    exact hsame (erase_geometry l m)
  | setAt l i v => exact st.keeps (setAt_shape l i v) m hm
  | setAtPosition l p v => exact st.keeps (setAtPosition_shape l p v) m hm
  | clear l => exact st.keeps (clear_shape l) m hm
  | clearBasic => exact st.keeps clearBasic_shape m hm
  | clearAll => exact st.shape (SameShape.clearAll m) hm
  | move p => exact (move_geo p).discard m hm
  | extendToInclude o => exact (extendToInclude_geo o).discard m hm
  | addDataFrom o e w a ls => exact (st.addDataFrom extendToInclude_geo o e w a ls).discard m hm
  | inflate obj pop hyp ls ld r f => exact Inflation.inflate_keeps st pop hyp r f ⟨obj, m, []⟩ hm
  | deflate k ls ld => exact st.deflate k ls ld m hm
  | fromMessage msg => exact Act.bind_keeps (P := GeoOrNone) (fromMessage_geo msg hm hu) (fun _ => Keeps.pure _)
  | addLayerFromImage cv img l => exact (st.addLayerFromImage cv img l).discard m hm
  | fromImageBundle cv rf files => exact fromImageBundle_geo cv rf files hm hu
  | fromCostmap2DROS c l =>
    exact Act.bind_keeps (P := GeoOrNone) (fromCostmap2DROS_geo c l hm hu) (fun _ => Keeps.pure _)
  | fromCostmap2DROSAtRobotPose c g l =>
    exact Act.bind_keeps (P := GeoOrNone) (fromCostmap2DROSAtRobotPose_geo c g l hm hu) (fun _ => Keeps.pure _)

theorem getSubmap_geo {m s : CostMap K} (hc : m.Coherent) (hm : GeoOrNone m) {p len : Vec K} {i j : Idx} {b : Bool}
    (e : m.getSubmap p len i = .ok (s, j, b)) : GeoOrNone s := by
  rcases hm with hg | hg
  · rcases getSubmap_spec hg hc p len i with ⟨-, e'⟩ | ⟨s', e', -, hb, -⟩
    · rw [e'] at e; cases e; exact .inr ⟨rfl, rfl⟩
    · rw [e'] at e; cases e; exact .inl (hb.geo hg)
  · unfold getSubmap at e
    dsimp only at e
    split at e
    · cases e; exact .inr ⟨rfl, rfl⟩
    · rw [setGeometry_zero _ hg.2] at e
      cases e

theorem held_geo {names : List String → Prop} (hn : ∀ ls, names ls → ls.Nodup) {m : CostMap K}
    (h : Held names Call.Usable m) : GeoOrNone m := by
  induction h with
  | new h => exact .inr ⟨rfl, rfl⟩
  | returned c _ hu e ih => have := call_geo c ih hu; rwa [e] at this
  | threw c x _ hu e ih => have := call_geo c ih hu; rwa [e] at this
  | submap p len i j b hh e ih => exact getSubmap_geo (held_coherent hn hh) ih e

end CostMap

theorem Held.step {names : List String → Prop} {ok : CostMap K → Call K → Prop} {m : CostMap K} (c : Call K)
    (h : Held names ok m) (hu : ok m c) (e : (c.run m).1 = .ok ()) : Held names ok (c.run m).2 :=
  .returned c h hu (Prod.ext e rfl)

end CostMapModel

import Verif.Spec.Loops
import Verif.Props.SubmapEdit
import Verif.Props.Iterators
import Verif.Props.Spiral
import Verif.Props.Line

/-!
# Loops that change the map they run over: C103
-/

set_option linter.unusedSectionVars false

namespace CostMapModel
open CostMap
open Act (Keeps)

section
variable {K : Type} [Field K] [LinearOrder K] [IsStrictOrderedRing K] [FloorRing K]

/-- C103. What the body of a loop does to the map has no influence on the indices it gets: for every kind of iterator and every body, the
loop runs the body for the indices that the iterator visits when nothing is changed, in the same order, until the body fails. -/
theorem C103_same_indices {σ τ : Type} {I : IterOps τ Idx} {it : τ} {xs : List Idx} (h : Visits I it xs) (body : Idx → Act σ Unit)
    {n : Nat} (hn : xs.length < n) (s : σ) : Act.forIter I body n it s = Act.forEach body xs s :=
  Act.forIter_eq body h n hn s

/-- C103. A loop that computes the cost of every cell it visits from the cost of that cell, in the same layer or in another one:
with any iterator that visits cells of the map, each at most once, every visited cell gets the cost computed from what was there before
the loop, and nothing else changes. -/
theorem C103_update {τ : Type} {I : IterOps τ Idx} {it : τ} {xs : List Idx} (h : Visits I it xs) (hn : xs.Nodup) {m : CostMap K}
    (hc : m.Coherent) (hx : ∀ i ∈ xs, i.In m.size) {a b : String} (ha : m.exists a = true) (hb : m.exists b = true)
    (f : Idx → Cost → Cost) {n : Nat} (hl : xs.length < n) :
    ∃ m', Act.forIter I (updateCell a b f) n it m = (.ok (), m') ∧ SameGeometry m m' ∧ SameMeta m m' ∧ m'.Coherent ∧
      m'.layers = m.layers ∧
      (∀ i ∈ xs, ∃ v, m.at a i = .ok v ∧ m'.at b i = .ok (f i v)) ∧
      ∀ l j, ¬ (l = b ∧ j ∈ xs) → m'.at l j = m.at l j := by
  rw [C103_same_indices h _ hl]
  clear h hl
  suffices key : ∃ m', Act.forEach (updateCell a b f) xs m = (.ok (), m') ∧ SameShape m m' ∧
      (∀ i ∈ xs, ∃ v, m.at a i = .ok v ∧ m'.at b i = .ok (f i v)) ∧ ∀ l j, ¬ (l = b ∧ j ∈ xs) → m'.at l j = m.at l j by
    obtain ⟨m', e, s, h1, h2⟩ := key
    exact ⟨m', e, s.geo, s.info, s.coherent hc, s.layers, h1, h2⟩
  induction xs generalizing m with
  | nil => exact ⟨m, rfl, SameShape.refl m, by simp, fun _ _ _ => rfl⟩
  | cons x xs ih =>
    have hx0 := hx x (List.mem_cons_self ..)
    obtain ⟨v, hv⟩ := hc.at_ok ha hx0
    obtain ⟨m1, e1, s1, at1, -⟩ := setAt_spec hc hb hx0 (f x v)
    have step : updateCell a b f x m = (.ok (), m1) := by
      unfold updateCell
      rw [Act.bind_ok (show Act.read (fun m => m.at a x) m = (.ok v, m) by simp [Act.read, hv])]
      exact e1
    obtain ⟨hxn, hn'⟩ := List.nodup_cons.1 hn
    obtain ⟨m', e', s', h1, h2⟩ := ih hn' (s1.coherent hc) (fun i hi => by rw [s1.geo.size]; exact hx i (List.mem_cons_of_mem _ hi))
      (by unfold CostMap.exists; rw [s1.isSome]; exact ha) (by unfold CostMap.exists; rw [s1.isSome]; exact hb)
    refine ⟨m', ?_, s1.trans s', ?_, ?_⟩
    · unfold Act.forEach
      rw [Act.bind_ok step]
      exact e'
    · intro i hi
      rcases List.mem_cons.1 hi with rfl | hi'
      · exact ⟨v, hv, by rw [h2 b i (fun h => hxn h.2), at1, if_pos ⟨rfl, rfl⟩]⟩
      · obtain ⟨u, hu, hu'⟩ := h1 i hi'
        refine ⟨u, ?_, hu'⟩
        rw [at1, if_neg] at hu
        · exact hu
        · rintro ⟨-, rfl⟩; exact hxn hi'
    · intro l j hlj
      rw [h2 l j (fun h => hlj ⟨h.1, List.mem_cons_of_mem _ h.2⟩), at1, if_neg]
      rintro ⟨rfl, rfl⟩
      exact hlj ⟨rfl, List.mem_cons_self ..⟩

/-- C103. The loop over all cells of a map, on the machine. -/
theorem C103_update_all_cells {w : World K} {F : Fmt K} {rf : K → K} (hrd : DoublePrecision F.rd) (hF : IntsExact F.rd)
    (htop : 2 ^ 31 ≤ F.top) {m : CostMap K} (h : HeldI w F rf m) {a b : String} (ha : m.exists a = true) (hb : m.exists b = true)
    (f : Idx → Cost → Cost) :
    ∃ m', forCellsI (updateCell a b f) m = (.ok (), m') ∧ SameGeometry m m' ∧ SameMeta m m' ∧ m'.Coherent ∧ m'.layers = m.layers ∧
      (∀ i, i.In m.size → ∃ v, m.at a i = .ok v ∧ m'.at b i = .ok (f i v)) ∧
      ∀ l j, ¬ (l = b ∧ j.In m.size) → m'.at l j = m.at l j := by
  have hm := held_inWorld hrd hF htop h
  obtain ⟨it, xs, e, hv, hen, hrow⟩ := C79_iterate hm.geo.start hm.small
  have hlen : xs.length < m.size.x.toNat * m.size.y.toNat + 2 := by
    have := congrArg List.length hrow
    rw [List.length_map, rowMajor_length] at this
    omega
  obtain ⟨m', e', g, mt, c, l, h1, h2⟩ := C103_update hv hen.1 hm.coherent (fun i hi => (hen.2 i).1 hi) ha hb f hlen
  refine ⟨m', ?_, g, mt, c, l, fun i hi => h1 i ((hen.2 i).2 hi), fun l j hlj => h2 l j fun hx => hlj ⟨hx.1, (hen.2 j).1 hx.2⟩⟩
  unfold forCellsI
  rw [e]
  exact e'

/-- C103. The loop over the cells of a polygon: exactly the cells whose centre is inside change. -/
theorem C103_update_polygon {m : CostMap K} (h : m.Geo) (hc : m.Coherent) (vs : List (Vec K)) (hne : vs ≠ [])
    (heps : ∀ v ∈ vs, EpsOk m v) {a b : String} (ha : m.exists a = true) (hb : m.exists b = true) (f : Idx → Cost → Cost) :
    ∃ it N, polygonIter m vs = .ok it ∧ ∀ n, N < n → ∃ m', Act.forIter ShapeIter.ops (updateCell a b f) n it m = (.ok (), m') ∧
      SameGeometry m m' ∧ SameMeta m m' ∧ m'.Coherent ∧ m'.layers = m.layers ∧
      (∀ i p, m.getPosition i = some p → EvenOdd vs p → ∃ v, m.at a i = .ok v ∧ m'.at b i = .ok (f i v)) ∧
      ∀ l j, ¬ (l = b ∧ ∃ p, m.getPosition j = some p ∧ EvenOdd vs p) → m'.at l j = m.at l j := by
  obtain ⟨it, xs, e, hv, hen⟩ := C19_polygon h vs hne heps
  refine ⟨it, xs.length, e, fun n hn => ?_⟩
  have hin : ∀ i ∈ xs, i.In m.size := by
    intro i hi
    obtain ⟨p, hp, -⟩ := (hen.2 i).1 hi
    by_contra hni
    rw [getPosition_none hni] at hp
    cases hp
  obtain ⟨m', e', g, mt, c, l, h1, h2⟩ := C103_update hv hen.1 hc hin ha hb f hn
  exact ⟨m', e', g, mt, c, l, fun i p hp hi => h1 i ((hen.2 i).2 ⟨p, hp, hi⟩),
    fun l j hlj => h2 l j fun hx => hlj ⟨hx.1, (hen.2 j).1 hx.2⟩⟩

/-- C103. The loop over the cells of a circle whose box the seam of the buffer does not cross (C17): exactly the cells whose centre is
in the circle change. -/
theorem C103_update_circle_partial {m : CostMap K} (h : m.Geo) (hc : m.Coherent) (center : Vec K) {radius : K} (hr : 0 ≤ radius)
    (htl : EpsOk m ⟨center.x + radius, center.y + radius⟩) (hbr : EpsOk m ⟨center.x - radius, center.y - radius⟩)
    (hf : SeamFree m ⟨center.x + radius, center.y + radius⟩ ⟨center.x - radius, center.y - radius⟩)
    {a b : String} (ha : m.exists a = true) (hb : m.exists b = true) (f : Idx → Cost → Cost) :
    ∃ it N, circleIter m center radius = .ok it ∧ ∀ n, N < n → ∃ m', Act.forIter ShapeIter.ops (updateCell a b f) n it m = (.ok (), m') ∧
      SameGeometry m m' ∧ SameMeta m m' ∧ m'.Coherent ∧ m'.layers = m.layers ∧
      (∀ i p, m.getPosition i = some p → dist2 p center ≤ radius ^ 2 → ∃ v, m.at a i = .ok v ∧ m'.at b i = .ok (f i v)) ∧
      ∀ l j, ¬ (l = b ∧ ∃ p, m.getPosition j = some p ∧ dist2 p center ≤ radius ^ 2) → m'.at l j = m.at l j := by
  obtain ⟨it, xs, e, hv, hen⟩ := C17_circle_partial h center hr htl hbr hf
  refine ⟨it, xs.length, e, fun n hn => ?_⟩
  have hin : ∀ i ∈ xs, i.In m.size := by
    intro i hi
    obtain ⟨p, hp, -⟩ := (hen.2 i).1 hi
    by_contra hni
    rw [getPosition_none hni] at hp
    cases hp
  obtain ⟨m', e', g, mt, c, l, h1, h2⟩ := C103_update hv hen.1 hc hin ha hb f hn
  exact ⟨m', e', g, mt, c, l, fun i p hp hi => h1 i ((hen.2 i).2 ⟨p, hp, hi⟩),
    fun l j hlj => h2 l j fun hx => hlj ⟨hx.1, (hen.2 j).1 hx.2⟩⟩

/-! ## Bodies that call anything -/

theorem sizeIs_stable (s : Idx) : Stable (fun m : CostMap K => m.size = s) where
  shape h hm := h.geo.size.trans hm
  info _ _ h hm := h.size.trans hm
  add l a m hm := (add_geometry l a m).size.trans hm

theorem discard_state {α : Type} (f : Act (CostMap K) α) (m : CostMap K) : (Call.discard f m).2 = (f m).2 := by
  unfold Call.discard Act.bind
  rcases f m with ⟨r, s⟩
  cases r <;> rfl

theorem call_keepsCells {w : World K} {F : Fmt K} {rf : K → K} (hrd : DoublePrecision F.rd) {m : CostMap K} (hm : InWorld w F.rd m)
    (c : MachineCall K) (h : w.Fits F rf m c) (hk : c.KeepsCells) : (c.run F rf m).2.size = m.size := by
  have st := sizeIs_stable (K := K) m.size
  cases c with
  | plain c =>
    cases c with
    | add l a => exact st.add l a m rfl
    | addConst l v => exact st.addConst l v m rfl
    | erase l =>
      show (Call.discard _ m).2.size = _
      rw [discard_state]; exact (erase_geometry l m).size
    | setAt l i v => exact (setAt_shape l i v m).geo.size
    | clear l => exact (clear_shape l m).geo.size
    | clearBasic => exact (clearBasic_shape m).geo.size
    | deflate k ls ld => exact st.deflate k ls ld m rfl
    | setBasicLayers _ => rfl
    | setTimestamp _ => rfl
    | resetTimestamp => rfl
    | setFrameId _ => rfl
    | setPosition _ => rfl
    | setStartIndex _ => rfl
    | clearAll => rfl
    | _ => exact h.elim
  | setAtPosition l p v =>
    show (setAtPositionI F.rd l p v m).2.size = _
    unfold setAtPositionI
    split
    · rfl
    · split
      · exact (setAt_shape _ _ _ m).geo.size
      · rfl
  | move p =>
    obtain ⟨r, m', e, -, h', -⟩ := moveI_safe hrd hm h.1 h.2
    show (Call.discard _ m).2.size = _
    rw [discard_state, e]; exact h'
  | addDataFrom o e w' a ls =>
    obtain rfl : e = false := hk
    obtain ⟨h1, h2, h3, h4, ⟨k, h5⟩, h6, h7, -⟩ := h
    have hr := hm.geo.res_pos
    have hto : o.Tame := ⟨h3.x.trans (by have := h1.res_pos; nlinarith), h3.y.trans (by have := h1.res_pos; nlinarith)⟩
    obtain ⟨m', e, g, -⟩ := C76_merges_cell_by_cell hrd hm.geo hm.tame43 hm.coherent h1 h3 h2 (h5.mono (by linarith)) w' a ls _ rfl h6 h7
    show (Call.discard _ m).2.size = _
    rw [discard_state, C79_addDataFrom hrd hm.geo.start hm.small h1 hto h4 w' a ls, e]
    exact g.size
  | inflate obj pop hyp ls ld r f => exact Inflation.inflateU_keeps st F rf pop hyp (.fin r) f ⟨obj, m, []⟩ rfl
  | addLayerFromImage cv img l =>
    show (Call.discard _ m).2.size = _
    rw [discard_state]
    have hk : Keeps (fun m' : CostMap K => m'.size = m.size) (addLayerFromImageI cv img l) := by
      unfold addLayerFromImageI
      split
      · exact Keeps.pure _
      refine (st.addConst _ _).bind fun _ m' hm' => ?_
      split
      · exact hm'
      · refine Keeps.bind (P := fun m' : CostMap K => m'.size = m.size) (fun m' hm' => ?_) (fun _ => Keeps.pure _) m' hm'
        unfold forCellsI
        split
        · exact hm'
        · exact Keeps.forIter _ (fun i => st.imageCell cv img l i) _ _ m' hm'
    exact hk m rfl
  | setGeometry _ _ _ => exact hk.elim
  | extendToInclude _ => exact hk.elim
  | fromMessage _ => exact hk.elim
  | fromImageBundle _ _ => exact hk.elim
  | fromCostmap _ _ => exact hk.elim
  | fromCostmapAtRobot _ _ _ => exact hk.elim

/-- A sequence of steps that are defined where `P` holds and keep it unless they end the program. -/
theorem forEach_defined {α σ : Type} {P : σ → Prop} {f : α → Act σ Unit} {xs : List α}
    (h : ∀ x ∈ xs, ∀ s, P s → (f x s).1.Defined ∧ ((f x s).1 ≠ .assertFail → P (f x s).2)) :
    ∀ s, P s → (Act.forEach f xs s).1.Defined ∧ ((Act.forEach f xs s).1 ≠ .assertFail → P (Act.forEach f xs s).2) := by
  induction xs with
  | nil => exact fun s hs => ⟨by simp [Act.forEach, Act.pure], fun _ => hs⟩
  | cons x xs ih =>
    intro s hs
    have hx := h x (List.mem_cons_self ..) s hs
    unfold Act.forEach Act.bind
    rcases e : f x s with ⟨r, s'⟩
    rw [e] at hx
    cases r with
    | ok u => exact ih (fun y hy => h y (List.mem_cons_of_mem _ hy)) s' (hx.2 (by simp))
    | thrown e => exact ⟨by simp, fun _ => hx.2 (by simp)⟩
    | assertFail => exact ⟨by simp, fun h => absurd rfl h⟩
    | ub => exact absurd rfl hx.1.1
    | outOfFuel => exact absurd rfl hx.1.2

/-- C103. A loop over all cells of a map whose body makes any calls on the map that do not change its number of cells, whatever they do to
its layers, costs and place. `J` is what the program knows about the map in the loop. If the calls fit the world when `J` holds, and keep
it, then all calls in the loop are defined, for every iteration, and the map stays one that a program can hold. -/
theorem C103_any_body {w : World K} {F : Fmt K} {rf : K → K} (hrd : DoublePrecision F.rd) (hF : IntsExact F.rd)
    (htop : 2 ^ 31 ≤ F.top) {m : CostMap K} (h : HeldI w F rf m) (J : CostMap K → Prop) (hJ : J m)
    (prog : Idx → List (MachineCall K))
    (hp : ∀ i, i.In m.size → ∀ c ∈ prog i, c.KeepsCells ∧ ∀ m', HeldI w F rf m' → m'.size = m.size → J m' →
      w.Fits F rf m' c ∧ J (c.run F rf m').2) :
    (forCellsI (fun i => MachineCall.runAll F rf (prog i)) m).1.Defined ∧
      ((forCellsI (fun i => MachineCall.runAll F rf (prog i)) m).1 ≠ .assertFail →
        HeldI w F rf (forCellsI (fun i => MachineCall.runAll F rf (prog i)) m).2 ∧
        (forCellsI (fun i => MachineCall.runAll F rf (prog i)) m).2.size = m.size) := by
  have hm := held_inWorld hrd hF htop h
  obtain ⟨it, xs, e, hv, hen, hrow⟩ := C79_iterate hm.geo.start hm.small
  have hlen : xs.length < m.size.x.toNat * m.size.y.toNat + 2 := by
    have := congrArg List.length hrow
    rw [List.length_map, rowMajor_length] at this
    omega
  have eq : forCellsI (fun i => MachineCall.runAll F rf (prog i)) m =
      Act.forEach (fun i => MachineCall.runAll F rf (prog i)) xs m := by
    unfold forCellsI
    rw [e]
    exact C103_same_indices hv _ hlen m
  rw [eq]
  have key := forEach_defined (P := fun m' => HeldI w F rf m' ∧ m'.size = m.size ∧ J m') (xs := xs)
    (f := fun i => MachineCall.runAll F rf (prog i)) ?_ m ⟨h, rfl, hJ⟩
  · exact ⟨key.1, fun hn => ⟨(key.2 hn).1, (key.2 hn).2.1⟩⟩
  intro i hi
  refine forEach_defined fun c hc m' hm' => ?_
  obtain ⟨hk, hfit⟩ := hp i ((hen.2 i).1 hi) c hc
  obtain ⟨hfit, hj⟩ := hfit m' hm'.1 hm'.2.1 hm'.2.2
  have hw := held_inWorld hrd hF htop hm'.1
  have hd := (call_inWorld hrd hF htop hw c hfit).1
  have hs := (call_keepsCells hrd hw c hfit hk).trans hm'.2.1
  refine ⟨hd, fun hna => ⟨?_, hs, hj⟩⟩
  rcases er : c.run F rf m' with ⟨r, s⟩
  rw [er] at hd hna
  cases r with
  | ok u => exact .returned c hm'.1 hfit er
  | thrown e => exact .threw c e hm'.1 hfit er
  | assertFail => exact absurd rfl hna
  | ub => exact absurd rfl hd.1
  | outOfFuel => exact absurd rfl hd.2

end

-- The hypotheses are met: in every cell a cost is written, a layer is added or filled again, and the layer is cleared.
example : (forCellsI (fun i => MachineCall.runAll binary64 toFloat
    [.plain (.setAt "a" i 7), .plain (.addConst "seen" 1), .plain (.clear "seen")]) Demo.tenths).1.Defined := by
  refine (C103_any_body (F := binary64) toDouble_precision toDouble_ints Demo.top64 Demo.tenths_held (fun _ => True) trivial _ ?_).1
  intro i hi c hc
  simp only [List.mem_cons, List.not_mem_nil, or_false] at hc
  rcases hc with rfl | rfl | rfl
  · exact ⟨trivial, fun m' _ hs _ => ⟨by show i.In m'.size; rw [hs]; exact hi, trivial⟩⟩
  · exact ⟨trivial, fun _ _ _ _ => ⟨trivial, trivial⟩⟩
  · exact ⟨trivial, fun _ _ _ _ => ⟨trivial, trivial⟩⟩

-- One more in every cell.
example : ∃ m' v, forCellsI (updateCell "a" "a" fun _ c => c + 1) Demo.tenths = (.ok (), m') ∧ Demo.tenths.at "a" ⟨3, 2⟩ = .ok v ∧
    m'.at "a" ⟨3, 2⟩ = .ok (v + 1) := by
  obtain ⟨m', e, -, -, -, -, h, -⟩ := C103_update_all_cells (F := binary64) toDouble_precision toDouble_ints Demo.top64
    Demo.tenths_held (a := "a") (b := "a") (by decide +kernel) (by decide +kernel) (fun _ c => c + 1)
  obtain ⟨v, h1, h2⟩ := h ⟨3, 2⟩ (by decide +kernel)
  exact ⟨m', v, e, h1, h2⟩

-- One more in every cell of a triangle on a moved map.
example : ∃ it N, polygonIter Demo.rotated [⟨0, -2⟩, ⟨2, -2⟩, ⟨1, 0⟩] = .ok it ∧ ∀ n, N < n →
    ∃ m' v, Act.forIter ShapeIter.ops (updateCell "a" "a" fun _ c => c + 1) n it Demo.rotated = (.ok (), m') ∧
      Demo.rotated.at "a" ⟨0, 0⟩ = .ok v ∧ m'.at "a" ⟨0, 0⟩ = .ok (v + 1) := by
  obtain ⟨it, N, e, h⟩ := C103_update_polygon Demo.rotated_geo Demo.rotated_coherent [⟨0, -2⟩, ⟨2, -2⟩, ⟨1, 0⟩] (by simp)
    (by decide +kernel) (a := "a") (b := "a") (by decide +kernel) (by decide +kernel) (fun _ c => c + 1)
  refine ⟨it, N, e, fun n hn => ?_⟩
  obtain ⟨m', e', -, -, -, -, h, -⟩ := h n hn
  obtain ⟨v, h1, h2⟩ := h ⟨0, 0⟩ ⟨1, -5 / 4⟩ (by decide +kernel) (by rw [← polygonInside_iff]; decide +kernel)
  exact ⟨m', v, e', h1, h2⟩

-- And in every cell of a circle.
example : ∃ it N, circleIter Demo.base ⟨1, -1⟩ 1 = .ok it ∧ ∀ n, N < n →
    ∃ m' v, Act.forIter ShapeIter.ops (updateCell "a" "b" fun _ c => c + 1) n it Demo.base = (.ok (), m') ∧
      Demo.base.at "a" ⟨2, 2⟩ = .ok v ∧ m'.at "b" ⟨2, 2⟩ = .ok (v + 1) := by
  obtain ⟨it, N, e, h⟩ := C103_update_circle_partial Demo.base_geo Demo.base_coherent ⟨1, -1⟩ (radius := 1) (by norm_num)
    (by decide +kernel) (by decide +kernel) (by decide +kernel) (a := "a") (b := "b") (by decide +kernel) (by decide +kernel)
    (fun _ c => c + 1)
  refine ⟨it, N, e, fun n hn => ?_⟩
  obtain ⟨m', e', -, -, -, -, h, -⟩ := h n hn
  obtain ⟨v, h1, h2⟩ := h ⟨2, 2⟩ ⟨1, -5 / 4⟩ (by decide +kernel) (by norm_num [dist2])
  exact ⟨m', v, e', h1, h2⟩

namespace Demo
/-- Two cells. -/
def twoCells : CostMap ℚ := ⟨"map", 0, fun k => if k = "a" then some ⟨2, 1, [1, 2], rfl⟩ else none, ["a"], [], ⟨2, 1⟩, 1, ⟨0, 0⟩, ⟨2, 1⟩, 0⟩
end Demo

/-- C103 for calls that change the number of cells is false: a map of two cells that is given the size of one cell while a loop runs over it.
The loop goes on to the second cell and writes outside of the buffer. -/
theorem C103_false_shrinking : (forCellsI (fun i => MachineCall.runAll binary64 toFloat
    [.plain (.setAt "a" i 7), .setGeometry ⟨1, 1⟩ 1 ⟨0, 0⟩]) Demo.twoCells).1 = .ub := by
  decide +kernel

end CostMapModel

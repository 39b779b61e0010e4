import Verif.Lemmas.Safety

/-!
# C72: every call has a defined outcome
-/

set_option linter.unusedSectionVars false

namespace CostMapModel
open CostMap
variable {K : Type} [Field K] [LinearOrder K] [IsStrictOrderedRing K] [FloorRing K]

/-- C72, calls that change a map: on every map a program can hold, every call whose precondition `Call.Safe` holds returns, throws
or fails an assertion. It never reads or writes outside of a layer, an image or a message, and it ends. -/
theorem C72_calls {m : CostMap K} (h : Held List.Nodup Call.Usable m) (c : Call K) (hu : c.Usable m) (hs : c.Safe m) :
    (c.run m).1.Defined :=
  call_defined c (held_coherent (fun _ h => h) h) (held_geo (fun _ h => h) h) hu hs

/-- C72, calls that only read, on a map that has been given a geometry. -/
theorem C72_queries {m : CostMap K} (h : Held List.Nodup Call.Usable m) (hr : m.resolution ≠ 0) :
    (∀ l i, i.In m.size → (m.at l i).Defined) ∧ (∀ l p, (m.atPosition l p).Defined) ∧
    (∀ i, i.In m.size → (m.isValid i).Defined) ∧ (∀ i l, i.In m.size → (m.isValidLayer i l).Defined) ∧
    (∀ i ls, i.In m.size → (m.isValidLayers i ls).Defined) ∧ (∀ l i, i.In m.size → (m.getPosition3 l i).Defined) ∧
    (∀ pre i, i.In m.size → (m.getVector pre i).Defined) ∧ (∀ p len i, (m.getSubmap p len i).Defined) ∧
    m.toMessage.Defined ∧ (∀ txt files, (m.toImageBundle txt files).Defined) ∧
    (∀ rf l old, (m.toOccupancyGrid rf l old).Defined) ∧ ∀ g, (toGridMap m g).1.Defined := by
  have hm := held_sound h hr
  exact ⟨fun l i hi => at_defined hm.coherent l hi, atPosition_defined hm, fun i hi => isValidLayers_defined hm.coherent hi _,
    fun i l hi => isValidLayer_defined hm.coherent hi l, fun i ls hi => isValidLayers_defined hm.coherent hi ls,
    fun l i hi => getPosition3_defined hm.coherent l hi, fun pre i hi => getVector_defined hm.coherent pre hi,
    getSubmap_defined hm, toMessage_defined m, toImageBundle_defined hm.coherent, toOccupancyGrid_defined hm,
    toGridMap_defined m⟩

/-! ## The preconditions are needed -/

/-- A map without geometry: adding an image without pixels reads a pixel all the same. -/
theorem C72_geometry_needed (cv : Cv) :
    ∃ m : CostMap ℚ, Held List.Nodup Call.Usable m ∧ m.resolution = 0 ∧
      ((Call.addLayerFromImage cv (.mono8 Mat.empty) "a").run m).1 = .ub := by
  exact ⟨CostMap.new [], .new List.nodup_nil, rfl, rfl⟩

/-- An index outside of the map. -/
theorem C72_index_needed : ∃ m : CostMap ℚ, Held List.Nodup Call.Usable m ∧ m.resolution ≠ 0 ∧
    ((Call.setAt "a" ⟨4, 0⟩ 7).run m).1 = .ub := by
  have h0 : Held (K := ℚ) List.Nodup Call.Usable (CostMap.new ["a"]) := .new (by decide)
  have h1 := h0.step (.setGeometry ⟨2, 3⟩ (1 / 2) ⟨0, 0⟩) (by show HalfCell _ _; constructor <;> norm_num) (by decide +kernel)
  exact ⟨_, h1, by decide +kernel, by decide +kernel⟩

/-- A message whose layer has fewer data than it says. -/
theorem C72_message_needed : ∃ msg : CostMapMsg ℚ, Call.Usable (CostMap.new []) (.fromMessage msg) ∧
    ((Call.fromMessage msg).run (CostMap.new [])).1 = .ub := by
  refine ⟨{ stampSec := 0, stampNsec := 0, frameId := "", resolution := 1, lengthX := 2, lengthY := 1, position := ⟨0, 0⟩,
            layers := ["a"], basicLayers := [],
            data := [⟨[⟨"column_index", 1, 2⟩, ⟨"row_index", 2, 2⟩], 0, [7]⟩],
            outerStartIndex := 0, innerStartIndex := 0 }, ?_, ?_⟩
  · exact ⟨by norm_num, by norm_num⟩
  · decide +kernel

/-! ## Cases that meet the hypotheses -/

/-- A map of 4 x 6 cells, moved and with a start index of its own. -/
theorem Demo.heldMap : ∃ m : CostMap ℚ, Held List.Nodup Call.Usable m ∧ m.resolution = 1 / 2 ∧ m.size = ⟨4, 6⟩ ∧
    m.startIndex = ⟨3, 0⟩ ∧ m.layers = ["a", "b"] := by
  have h0 : Held (K := ℚ) List.Nodup Call.Usable (CostMap.new ["a", "b"]) := .new (by decide)
  have h1 := h0.step (.setGeometry ⟨2, 3⟩ (1 / 2) ⟨0, 0⟩) (by show HalfCell _ _; constructor <;> norm_num) (by decide +kernel)
  have h2 := h1.step (.move ⟨1 / 2, 0⟩) trivial (by decide +kernel)
  have h3 := h2.step (.setStartIndex ⟨3, 0⟩) (by show Idx.In _ _; decide +kernel) (by decide +kernel)
  exact ⟨_, h3, by decide +kernel, by decide +kernel, by decide +kernel, by decide +kernel⟩

example : ∃ m : CostMap ℚ, (∀ p, ((Call.move p).run m).1.Defined) ∧ ((Call.setAt "b" ⟨3, 5⟩ 7).run m).1.Defined ∧
    (∀ e w a ls, ((Call.addDataFrom m e w a ls).run m).1.Defined) ∧ m.toMessage.Defined := by
  obtain ⟨m, h, hr, hs, -, -⟩ := Demo.heldMap
  have hr0 : m.resolution ≠ 0 := by rw [hr]; norm_num
  exact ⟨m, fun p => C72_calls h (.move p) trivial hr0,
    C72_calls h (.setAt "b" ⟨3, 5⟩ 7) trivial (by show Idx.In _ _; rw [hs]; exact ⟨by decide, by decide, by decide, by decide⟩),
    fun e w a ls => C72_calls h (.addDataFrom m e w a ls) trivial ⟨hr0, h, hr0⟩, (C72_queries h hr0).2.2.2.2.2.2.2.2.1⟩

end CostMapModel

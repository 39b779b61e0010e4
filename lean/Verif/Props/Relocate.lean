import Verif.Lemmas.Relocate
import Verif.Props.MachineHistory
import Verif.Props.Spiral
import Verif.Props.Merge
import Verif.Props.Demo

/-!
# C104: giving a map another position

`setPosition` puts the map somewhere else together with its costs; nothing but positions is affected by where a map is.
-/

namespace CostMapModel
open CostMap

section
variable {K : Type} [Field K] [LinearOrder K] [IsStrictOrderedRing K] [FloorRing K]

/-- C104. `setPosition` changes what `getPosition()` returns, and no cost, layer, cell or other information. -/
theorem C104_only_the_position (m : CostMap K) (q : Vec K) :
    (m.setPosition q).position = q ∧ (m.setPosition q).size = m.size ∧ (m.setPosition q).startIndex = m.startIndex ∧
    (m.setPosition q).length = m.length ∧ (m.setPosition q).resolution = m.resolution ∧
    (m.setPosition q).layers = m.layers ∧ (m.setPosition q).basicLayers = m.basicLayers ∧
    (m.setPosition q).frameId = m.frameId ∧ (m.setPosition q).timestamp = m.timestamp ∧
    ∀ l, (m.setPosition q).get l = m.get l ∧ ∀ i, (m.setPosition q).at l i = m.at l i ∧ (m.setPosition q).isValid i = m.isValid i :=
  ⟨rfl, rfl, rfl, rfl, rfl, rfl, rfl, rfl, rfl, fun l => ⟨rfl, fun i => ⟨rfl, by
    have e : m.setPosition q = m.shifted (q - m.position) := by
      unfold shifted; congr 1; ext <;> simp
    rw [e, isValid_shifted]⟩⟩⟩

theorem setPosition_eq (m : CostMap K) (q : Vec K) : m.setPosition q = m.shifted (q - m.position) := by
  unfold shifted; congr 1; ext <;> simp

/-- C104. Every cell moves along: its centre lies as far from where it was as the map does. -/
theorem C104_cells_move_along (m : CostMap K) (q : Vec K) (i : Idx) :
    (m.setPosition q).getPosition i = (m.getPosition i).map (· + (q - m.position)) := by
  rw [setPosition_eq, getPosition_shifted]

/-- C104. Looking up, or writing to, a position gives what the position had given that lies where it was before. -/
theorem C104_lookups (m : CostMap K) (q p : Vec K) (l : String) (v : Cost) :
    (m.setPosition q).isInside p = m.isInside (p - (q - m.position)) ∧
    (m.setPosition q).getIndex p = m.getIndex (p - (q - m.position)) ∧
    (m.setPosition q).atPosition l p = m.atPosition l (p - (q - m.position)) ∧
    setAtPosition l p v (m.setPosition q) =
      ((setAtPosition l (p - (q - m.position)) v m).1, (setAtPosition l (p - (q - m.position)) v m).2.setPosition q) := by
  have e : p = p - (q - m.position) + (q - m.position) := by ext <;> simp
  have hs : ∀ p', (setAtPosition l p' v m).2.position = m.position := fun p' => by
    unfold setAtPosition setAt
    simp only
    repeat' split
    all_goals rfl
  refine ⟨?_, ?_, ?_, ?_⟩
  · conv_lhs => rw [e, setPosition_eq, isInside_shifted]
  · conv_lhs => rw [e, setPosition_eq, getIndex_shifted]
  · conv_lhs => rw [e, setPosition_eq, atPosition_shifted]
  · conv_lhs => rw [e, setPosition_eq, setAtPosition_shifts]
    conv_rhs => rw [setPosition_eq, hs]

/-- C104. Each cost is found at its cell's new place. -/
theorem C104_costs_move_along {m : CostMap K} (hg : m.Geo) (q : Vec K) (l : String) {i : Idx} (hi : i.In m.size) :
    ∃ c, m.getPosition i = some c ∧ (m.setPosition q).getPosition i = some (c + (q - m.position)) ∧
      (m.setPosition q).atPosition l (c + (q - m.position)) = m.at l i := by
  obtain ⟨c, h1, -, h2⟩ := C10_index_position_index hg hi
  refine ⟨c, h1, by rw [C104_cells_move_along, h1]; rfl, ?_⟩
  rw [setPosition_eq, atPosition_shifted]
  unfold atPosition
  rw [h2]; rfl

/-- C104. Going back is as if nothing had happened. -/
theorem C104_back (m : CostMap K) (q : Vec K) : (m.setPosition q).setPosition m.position = m := rfl

/-- C104. Where a map is does not matter to `move`: with the map and the target shifted alike, it clears the same cells, reports
the same regions, and ends up shifted by as much. -/
theorem C104_move (m : CostMap K) (p d : Vec K) :
    move (p + d) (m.shifted d) = ((move p m).1, (move p m).2.shifted d) :=
  Shifts.moveWith clamp1 p m

/-- C104. Nor does it to `extendToInclude` and `addDataFrom`, with both maps shifted alike. -/
theorem C104_merge (m o : CostMap K) (d : Vec K) (e w a : Bool) (ls : List String) :
    extendToInclude (o.shifted d) (m.shifted d) = ((extendToInclude o m).1, (extendToInclude o m).2.shifted d) ∧
    addDataFrom (o.shifted d) e w a ls (m.shifted d) = ((addDataFrom o e w a ls m).1, (addDataFrom o e w a ls m).2.shifted d) :=
  ⟨extendToInclude_shifts d o m, addDataFrom_shifts d o e w a ls m⟩

/-- C104. Nor to lines: the same cells, in the same order. -/
theorem C104_line (norm : Vec K → K) (m : CostMap K) (a b d : Vec K) :
    LineIter.ofPositions norm (m.shifted d) (a + d) (b + d) = LineIter.ofPositions norm m a b := by
  unfold LineIter.ofPositions
  rw [indexLimited_shifted, indexLimited_shifted]

/-- C104. Nor to spirals. -/
theorem C104_spiral (m : CostMap K) (c d : Vec K) (r : K) {it : SpiralIter K} {xs : List Idx} (h : SpiralIter.new m c r = .ok it)
    (hv : Visits SpiralIter.ops it xs) :
    ∃ it', SpiralIter.new (m.shifted d) (c + d) r = .ok it' ∧ Visits SpiralIter.ops it' xs :=
  ⟨it.shifted d, by rw [SpiralIter.new_shifted, h]; rfl, SpiralIter.visits_shifted d hv⟩

/-- C104. On the machine, too: in the world, a cost is found at the place that the map gives as its cell's, which differs from
where it should be by the tolerance (see C73). -/
theorem C104_machine {w : World K} {F : Fmt K} {rf : K → K} (hrd : DoublePrecision F.rd) (hF : IntsExact F.rd)
    (htop : 2 ^ 31 ≤ F.top) {m : CostMap K} (h : HeldI w F rf m) {q : Vec K} (hq : PointIn w.size q) (l : String) {i : Idx}
    (hi : i.In m.size) :
    HeldI w F rf (m.setPosition q) ∧ ∃ c, (m.setPosition q).getPositionI F.rd i = some (some c) ∧
      (m.setPosition q).atPositionI F.rd l c = m.at l i ∧
      |c.x - (q.x + ((m.size.x : K) / 2 - (m.logical i).x - 1 / 2) * m.resolution)| ≤ (m.setPosition q).tolX ∧
      |c.y - (q.y + ((m.size.y : K) / 2 - (m.logical i).y - 1 / 2) * m.resolution)| ≤ (m.setPosition q).tolY := by
  have h' : HeldI w F rf (m.setPosition q) := .returned (.plain (.setPosition q)) h hq rfl
  refine ⟨h', ?_⟩
  obtain ⟨c, h1, -, h3⟩ := C101_round_trip hrd hF htop h' (i := i) hi
  have hm := held_inWorld hrd hF htop h'
  obtain ⟨c', h4, h5, h6⟩ := C73_centre hrd hm.geo hm.tame (i := i) hi
  have h1' := h1
  rw [C79_getPosition F.rd hm.geo.start hm.small, h4] at h1'
  obtain rfl : c' = c := by simpa using h1'
  refine ⟨c', h1, ?_, h5, h6⟩
  unfold atPositionI
  rw [h3]; rfl

end

/-- C104 is not about `move`, which leaves the costs where they are in the world: one cell further, the two give maps at the same
position with different costs there. -/
theorem C104_differs_from_move :
    (Demo.base.setPosition ⟨1 / 2, -1⟩).position = (move ⟨1 / 2, -1⟩ Demo.base).2.position ∧
    Demo.base.atPosition "a" ⟨1 / 2, -3 / 4⟩ = .ok 31 ∧ (move ⟨1 / 2, -1⟩ Demo.base).2.atPosition "a" ⟨1 / 2, -3 / 4⟩ = .ok 31 ∧
    (Demo.base.setPosition ⟨1 / 2, -1⟩).atPosition "a" ⟨1 / 2, -3 / 4⟩ = .ok 21 := by
  refine ⟨by decide +kernel, by decide +kernel, by decide +kernel, by decide +kernel⟩

/-! ## Non-vacuity -/

/-- A map with its buffer rotated. -/
example : ∃ c, Demo.rotated.getPosition ⟨3, 2⟩ = some c ∧
    (Demo.rotated.setPosition ⟨0, 7⟩).atPosition "a" (c + (⟨0, 7⟩ - Demo.rotated.position)) = .ok 32 := by
  obtain ⟨c, h1, -, h3⟩ := C104_costs_move_along Demo.rotated_geo ⟨0, 7⟩ "a" (i := ⟨3, 2⟩) (by decide +kernel)
  exact ⟨c, h1, h3.trans (by decide +kernel)⟩

/-- A move that does something. -/
example : (move (⟨2, -1⟩ + ⟨10, 20⟩) (Demo.rotated.shifted ⟨10, 20⟩)).2.position = ⟨12, 19⟩ := by
  rw [C104_move]; decide +kernel

/-- Two maps that share a corner. -/
example : (extendToInclude (Demo.rotated.shifted ⟨1, 1⟩ |>.shifted ⟨10, 20⟩) (Demo.base.shifted ⟨10, 20⟩)).2.size = ⟨7, 6⟩ := by
  rw [(C104_merge Demo.base (Demo.rotated.shifted ⟨1, 1⟩) ⟨10, 20⟩ false false false []).1]; decide +kernel

/-- A spiral of radius 9/10. -/
example : ∃ it xs, SpiralIter.new (Demo.base.shifted ⟨10, 20⟩) (⟨1, -1⟩ + ⟨10, 20⟩) (9 / 10) = .ok it ∧
    Visits SpiralIter.ops it xs ∧ (⟨2, 1⟩ : Idx) ∈ xs ∧ (⟨1, 2⟩ : Idx) ∈ xs := by
  obtain ⟨it, xs, h1, h2, -, -, h3, -⟩ := C23_spiral_fits_partial Demo.base_geo Demo.base_start (center := ⟨1, -1⟩)
    (radius := 9 / 10) (by decide +kernel) (by norm_num) (by
      intro p hp
      unfold dist2 at hp
      simp only at hp
      have a1 : (p.x - 1) ^ 2 ≤ (9 / 10) ^ 2 := by nlinarith [sq_nonneg (p.y - -1)]
      have a2 : (p.y - -1) ^ 2 ≤ (9 / 10) ^ 2 := by nlinarith [sq_nonneg (p.x - 1)]
      have b1 := abs_le.mp (abs_le_of_sq_le_sq a1 (by norm_num))
      have b2 := abs_le.mp (abs_le_of_sq_le_sq a2 (by norm_num))
      rw [C11_inside_iff]
      have e1 : Demo.base.position = ⟨1, -1⟩ := by decide +kernel
      have e2 : Demo.base.length = ⟨5 / 2, 2⟩ := by decide +kernel
      rw [Covers, e1, e2]
      refine ⟨⟨?_, ?_⟩, ?_, ?_⟩ <;> simp only <;> linarith [b1.1, b1.2, b2.1, b2.2])
  obtain ⟨it', h4, h5⟩ := C104_spiral Demo.base _ ⟨10, 20⟩ _ h1 h2
  exact ⟨it', xs, h4, h5, h3 _ ⟨1, -3 / 4⟩ (by decide +kernel) (by norm_num [dist2]),
    h3 _ ⟨3 / 2, -5 / 4⟩ (by decide +kernel) (by norm_num [dist2])⟩

/-- On the machine. -/
example : ∃ c, (Demo.tenths.setPosition ⟨7, 9⟩).getPositionI toDouble ⟨1, 2⟩ = some (some c) ∧
    (Demo.tenths.setPosition ⟨7, 9⟩).atPositionI toDouble "a" c = Demo.tenths.at "a" ⟨1, 2⟩ := by
  obtain ⟨-, c, h1, h2, -⟩ := C104_machine (F := binary64) toDouble_precision toDouble_ints Demo.top64 Demo.tenths_held
    (q := ⟨7, 9⟩) (by unfold PointIn; decide +kernel) "a" (i := ⟨1, 2⟩) (by decide +kernel)
  exact ⟨c, h1, h2⟩

end CostMapModel

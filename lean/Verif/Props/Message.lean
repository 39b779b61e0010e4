import Verif.Lemmas.Message
import Verif.Props.Container

/-!
# C48, C49, C50: cost map messages
-/

set_option linter.unusedSectionVars false

namespace CostMapModel
open CostMap
variable {K : Type} [Field K] [LinearOrder K] [IsStrictOrderedRing K] [FloorRing K]

/-- A map without layers, e.g. a new one or one whose geometry was set. -/
def NoLayers (m : CostMap K) : Prop := m.Coherent ∧ m.layers = []

/-- C48, for start indices that fit 16 bits, timestamps that fit ROS's 32-bit seconds and sizes that fit an `int`: what
comes back is the map that was sent, in every respect (frame, timestamp, geometry, start index, layers in order, basic
layers and costs). The full statement has no such bounds; see `C48_false` and `C48_late_timestamp_throws`. -/
theorem C48_message_round_trip_partial {m : CostMap K} (hg : m.Geo) (hc : m.Coherent)
    (ht : m.timestamp < 2 ^ 32 * 10 ^ 9) (hx : m.size.x < 2 ^ 31) (hy : m.size.y < 2 ^ 31)
    (sx : m.startIndex.x < 2 ^ 16) (sy : m.startIndex.y < 2 ^ 16) :
    ∃ msg, m.toMessage = .ok msg ∧ ∀ e : CostMap K, NoLayers e → fromMessage msg e = (.ok true, m) := by
  obtain ⟨s, n, e1, e2⟩ := stampOf_ok (t := m.timestamp) (by omega)
  have hd : ∀ l ∈ m.layers, m.data l = some ((m.data l).getD Mat.empty) := by
    intro l hl
    obtain ⟨a, ha⟩ := Option.isSome_iff_exists.1 ((hc.mem_iff l).1 hl)
    rw [ha]; rfl
  have hl := layerArrays_eq hd
  have h16 : ∀ i : Int, 0 ≤ i → i < 2 ^ 16 → ((UInt16.ofInt i).toNat : Int) = i := by
    intro i h1 h2
    have : (UInt16.ofInt i).toNat = (i % 2 ^ 16).toNat := UInt16.toNat_ofNat_of_lt' (show _ < 2 ^ 16 by omega)
    omega
  refine ⟨_, by simp only [toMessage, e1, hl, Res.bind_ok]; rfl, ?_⟩
  rintro e ⟨hec, hel⟩
  have hx1 : (m.size.x : K) * m.resolution / m.resolution = m.size.x := mul_div_cancel_right₀ _ hg.res_pos.ne'
  have hy1 : (m.size.y : K) * m.resolution / m.resolution = m.size.y := mul_div_cancel_right₀ _ hg.res_pos.ne'
  have px : (0 : K) < m.size.x := by exact_mod_cast hg.size_x
  have py : (0 : K) < m.size.y := by exact_mod_cast hg.size_y
  generalize hM : (⟨s, n, m.frameId, m.resolution, m.length.x, m.length.y, m.position, m.layers, m.basicLayers,
    m.layers.map fun l => MultiArray.ofMat ((m.data l).getD Mat.empty), UInt16.ofInt m.startIndex.x,
    UInt16.ofInt m.startIndex.y⟩ : CostMapMsg K) = msg
  have hgo : msg.GeometryOk := by
    subst hM
    exact ⟨hg.res_pos, by rw [hg.len_x]; exact mul_pos px hg.res_pos, by rw [hg.len_y]; exact mul_pos py hg.res_pos⟩
  have hsz : msg.size = m.size := by
    subst hM
    simp only [CostMapMsg.size, hg.len_x, hg.len_y, hx1, hy1, roundHalfAway_intCast _ hg.size_x.le,
      roundHalfAway_intCast _ hg.size_y.le]
  have hcnt : msg.layers.length = msg.data.length := by subst hM; simp
  have hbs : (blank msg e).size = m.size := hsz
  have tm : ∀ l a, m.data l = some a → (MultiArray.ofMat a).toMat = .ok a := by
    intro l a ha
    have := hc.dims l a ha
    exact MultiArray.toMat_ofMat (by omega) (by omega)
  obtain ⟨m', g1, g2, g3, g4, g5, g6⟩ := addArrays_spec (ps := msg.layers.zip msg.data) (blank_coherent hgo hec) (by
    intro p hp
    subst hM
    simp only [List.zip_map_right, List.mem_map, Prod.exists] at hp
    obtain ⟨l, l', hll, rfl⟩ := hp
    have : l' ∈ m.layers := (List.of_mem_zip hll).2
    have ha := hd l' this
    refine ⟨_, tm _ _ ha, ?_⟩
    rw [hbs]
    exact hc.dims _ _ ha)
  have key := fromMessage_run hgo hcnt g1
  have fin : ((m'.setBasicLayers msg.basicLayers).setStartIndex
      ⟨msg.outerStartIndex.toNat, msg.innerStartIndex.toNat⟩) = m := by
    have hL : m'.layers = m.layers := by
      rw [g5, show (blank msg e).layers = [] from hel, namesAfter_fresh]
      · rw [List.map_fst_zip hcnt.le]; subst hM; rfl
      · rw [List.map_fst_zip hcnt.le]; subst hM; simpa using hc.nodup
    have hD : m'.data = m.data := by
      funext l
      rw [g6 l]
      by_cases h : l ∈ m.layers
      · have : given (msg.layers.zip msg.data) l = some (MultiArray.ofMat ((m.data l).getD Mat.empty)) := by
          subst hM
          exact given_zip_map (f := fun l => MultiArray.ofMat ((m.data l).getD Mat.empty)) h
        rw [this]
        simp only [tm _ _ (hd l h)]
        exact (hd l h).symm
      · have hn : given (msg.layers.zip msg.data) l = none := by
          apply given_none
          rw [List.map_fst_zip hcnt.le]
          subst hM
          exact h
        have hm : m.data l = none := by
          cases hx : m.data l with
          | none => rfl
          | some a => exact absurd ((hc.mem_iff l).2 (by simp [hx])) h
        have he : e.data l = none := by
          cases hx : e.data l with
          | none => rfl
          | some a =>
            have := (hec.mem_iff l).2 (by simp [hx])
            rw [hel] at this
            simp at this
        rw [hn, hm]
        simp only [blank, clearAll, resize, setFrameId, setTimestamp, he, Option.map_none]
    have c1 := g4.frameId
    have c2 := g4.timestamp
    have c3 := g3.length
    have c4 := g3.resolution
    have c5 := g3.position
    have c6 := g3.size
    have hstart : (⟨(msg.outerStartIndex.toNat : Int), (msg.innerStartIndex.toNat : Int)⟩ : Idx) = m.startIndex := by
      subst hM
      exact Idx.ext (h16 _ hg.start.1 sx) (h16 _ hg.start.2.2.1 sy)
    have l1 : (⟨(msg.size.x : K) * msg.resolution, (msg.size.y : K) * msg.resolution⟩ : Vec K) = m.length := by
      rw [hsz]
      subst hM
      exact Vec.ext hg.len_x.symm hg.len_y.symm
    have t1 : stampToNSec msg.stampSec msg.stampNsec = m.timestamp := by subst hM; exact e2
    have f1 : msg.frameId = m.frameId := by subst hM; rfl
    have r1 : msg.resolution = m.resolution := by subst hM; rfl
    have p1 : msg.position = m.position := by subst hM; rfl
    have b1 : msg.basicLayers = m.basicLayers := by subst hM; rfl
    cases m'
    cases m
    simp only [blank, clearAll, resize, setFrameId, setTimestamp] at c1 c2 c3 c4 c5 c6 hL hD hsz l1 t1 f1 r1 p1 b1 hstart
    simp only [setBasicLayers, setStartIndex, CostMap.mk.injEq]
    exact ⟨c1.trans f1, c2.trans t1, hD, hL, b1, c3.trans l1, c4.trans r1, c5.trans p1, c6.trans hsz, hstart⟩
  rw [key, fin]

example : ∃ msg, Demo.rotated.toMessage = .ok msg ∧
    fromMessage msg (CostMap.new []) = (.ok true, Demo.rotated) := by
  obtain ⟨msg, h1, h2⟩ := C48_message_round_trip_partial Demo.rotated_geo Demo.rotated_coherent (by decide +kernel)
    (by decide +kernel) (by decide +kernel) (by decide +kernel) (by decide +kernel)
  exact ⟨msg, h1, h2 _ ⟨new_coherent (by simp), rfl⟩⟩

/-- The timestamp of a map is a 64-bit number of nanoseconds; from 2^32 seconds on it cannot be sent. -/
theorem C48_late_timestamp_throws (m : CostMap K) (ht : 2 ^ 32 * 10 ^ 9 ≤ m.timestamp) :
    m.toMessage = .thrown .runtimeError := by
  have : ¬ m.timestamp / 1000000000 < 2 ^ 32 := by omega
  simp only [toMessage, stampOf, this, if_false, Res.bind_thrown]

example : (Demo.base.setTimestamp (2 ^ 63)).toMessage = .thrown .runtimeError :=
  C48_late_timestamp_throws _ (by decide)

namespace Demo
/-- A map of 65537 x 1 cells whose start index is its last row; it has no layers. -/
def long : CostMap ℚ := (setGeometry ⟨65537, 1⟩ 1 ⟨0, 0⟩ (CostMap.new [])).2.setStartIndex ⟨65536, 0⟩

theorem long_geo : long.Geo where
  res_pos := by decide +kernel
  size_x := by decide +kernel
  size_y := by decide +kernel
  len_x := by decide +kernel
  len_y := by decide +kernel
  start := by decide +kernel

theorem long_coherent : long.Coherent := by
  have := setGeometry_coherent (K := ℚ) ⟨65537, 1⟩ 1 ⟨0, 0⟩ _ (new_coherent (ls := []) (by simp))
  exact ⟨this.nodup, this.mem_iff, this.dims⟩
end Demo

/-- C48 does not hold for every map: the start index is sent in 16 bits. -/
theorem C48_false : ¬ ∀ m : CostMap ℚ, m.Geo → m.Coherent → ∃ msg m', m.toMessage = .ok msg ∧
    fromMessage msg (CostMap.new []) = (.ok true, m') ∧ m'.startIndex = m.startIndex := by
  intro h
  obtain ⟨msg, m', h1, h2, h3⟩ := h Demo.long Demo.long_geo Demo.long_coherent
  have e : Demo.long.toMessage = .ok ⟨0, 0, "", 1, 65537, 1, ⟨0, 0⟩, [], [], [], 0, 0⟩ := by decide +kernel
  rw [e] at h1
  cases h1
  obtain ⟨-, h4 | ⟨-, -, m1, -, rfl⟩⟩ := fromMessage_inv h2
  · simp at h4
  · revert h3
    simp only [setStartIndex]
    decide

/-! ## What a message does to an existing map -/

/-- C49, the part that holds: after `fromMessage` returns true, every layer of the message is there and holds the
(last) array the message gives for it; geometry, frame, timestamp, start index and basic layers are those of the
message. Layers the map had before and that are not in the message stay, filled with `NO_INFORMATION`. In the full
statement they would be gone; see `C49_false`. -/
theorem C49_from_message_partial {m m' : CostMap K} {msg : CostMapMsg K} (hc : m.Coherent)
    (h : fromMessage msg m = (.ok true, m')) :
    m'.Coherent ∧
    (∀ l, m'.exists l = true ↔ m.exists l = true ∨ l ∈ msg.layers) ∧
    (∀ l ∈ msg.layers, ∃ a, given (msg.layers.zip msg.data) l = some a ∧
      ∀ i : Idx, i.In m'.size → ∃ c, a.valueAt m'.size.x i = some c ∧ m'.at l i = .ok c) ∧
    (∀ l, m.exists l = true → l ∉ msg.layers → AllUnknown m' l) ∧
    m'.size = msg.size ∧ m'.resolution = msg.resolution ∧ m'.position = msg.position ∧
    m'.length = ⟨msg.size.x * msg.resolution, msg.size.y * msg.resolution⟩ ∧
    m'.startIndex = ⟨msg.outerStartIndex.toNat, msg.innerStartIndex.toNat⟩ ∧
    m'.basicLayers = msg.basicLayers ∧ m'.frameId = msg.frameId ∧
    m'.timestamp = msg.stampSec.toNat * 10 ^ 9 + msg.stampNsec.toNat := by
  obtain ⟨hg, h | ⟨-, hn, m1, e1, rfl⟩⟩ := fromMessage_inv h
  · simp at h
  have hbc := blank_coherent hg hc
  have fits := addArrays_ok e1
  obtain ⟨m2, g1, g2, g3, g4, g5, g6⟩ := addArrays_spec hbc fits
  rw [e1] at g1
  simp only [Prod.mk.injEq, true_and] at g1
  subst g1
  have hexb : ∀ l, (blank msg m).exists l = m.exists l := by
    intro l
    simp only [CostMap.exists, blank, clearAll, resize, setFrameId, setTimestamp, Option.isSome_map]
  have hmem : ∀ l, l ∈ (msg.layers.zip msg.data).map Prod.fst ↔ l ∈ msg.layers := by
    intro l; rw [List.map_fst_zip hn.le]
  have hex : ∀ l, m1.exists l = true ↔ m.exists l = true ∨ l ∈ msg.layers := by
    intro l
    rw [← hexb, ← hmem]
    have a := g2.mem_iff l
    have b := hbc.mem_iff l
    rw [g5, mem_namesAfter] at a
    simp only [CostMap.exists]
    rw [← a, ← b]
  refine ⟨⟨g2.nodup, g2.mem_iff, g2.dims⟩, hex, ?_, ?_, g3.size, g3.resolution, g3.position, g3.length, rfl, rfl,
    g4.frameId, g4.timestamp⟩
  · intro l hl
    obtain ⟨a, ha⟩ := given_some ((hmem l).2 hl)
    refine ⟨a, ha, fun i hi => ?_⟩
    obtain ⟨M, hM, hr, hcl⟩ := fits _ (given_mem ha)
    have hi' : i.In msg.size := by rw [← show m1.size = msg.size from g3.size]; exact hi
    obtain ⟨i1, i2, i3, i4⟩ := hi'
    have bs : (blank msg m).size = msg.size := rfl
    rw [bs] at hr hcl
    have sh := MultiArray.shaped_of_toMat hM (by omega)
    obtain ⟨M', hM', hr', hc', hv⟩ := sh.toMat
    rw [hM] at hM'
    cases hM'
    have hv' := hv i.x i.y i1 (by omega) i3 (by omega)
    have hin : M.InRange i.x i.y := ⟨i1, by omega, i3, by omega⟩
    obtain ⟨c, hcc⟩ := Mat.exists_get? M hin
    refine ⟨c, ?_, ?_⟩
    · have : (m1.setBasicLayers msg.basicLayers |>.setStartIndex
        ⟨msg.outerStartIndex.toNat, msg.innerStartIndex.toNat⟩).size.x = M.rows := by
        show m1.size.x = M.rows
        rw [g3.size, bs, hr]
      rw [this, ← hcc, hv']
    · have : m1.data l = some M := by rw [g6 l, ha]; simp only [hM]
      show m1.at l i = .ok c
      rw [at_eq this, hcc]; rfl
  · intro l hl hnl i hi
    have : m1.data l = (blank msg m).data l := by
      rw [g6 l, given_none]
      rw [hmem]; exact hnl
    have hi' : i.In msg.size := by rw [← show m1.size = msg.size from g3.size]; exact hi
    obtain ⟨i1, i2, i3, i4⟩ := hi'
    obtain ⟨a, ha⟩ := exists_iff.mp hl
    show m1.at l i = _
    rw [at_congr this]
    simp only [CostMap.at, blank, clearAll, resize, setFrameId, setTimestamp, ha, Option.map_some]
    rw [Mat.get?_setConstant, Mat.get?_const, if_pos (by omega)]
    rfl

/-- C49 for a map that has no layers, which is how the code base uses it: exactly the layers of the message. -/
theorem C49_into_empty_map {m m' : CostMap K} {msg : CostMapMsg K} (hm : NoLayers m)
    (h : fromMessage msg m = (.ok true, m')) : m'.layers.Nodup ∧ ∀ l, l ∈ m'.layers ↔ l ∈ msg.layers := by
  obtain ⟨hc', hex, -⟩ := C49_from_message_partial hm.1 h
  refine ⟨hc'.nodup, fun l => ?_⟩
  rw [hc'.mem_iff]
  refine (hex l).trans ?_
  have : ¬ m.exists l = true := by
    intro hl
    have := (hm.1.mem_iff l).2 hl
    rw [hm.2] at this
    simp at this
  simp [this]

/-- C49 fails on the way to false: with different numbers of names and arrays `fromMessage` returns false, but the map
has already got the message's geometry, frame and timestamp, and all its costs are lost. -/
theorem C49_false_return_destroys (m : CostMap K) {msg : CostMapMsg K} (hg : msg.GeometryOk)
    (hn : msg.layers.length ≠ msg.data.length) :
    ∃ m', fromMessage msg m = (.ok false, m') ∧ m'.layers = m.layers ∧ m'.size = msg.size ∧
      m'.position = msg.position ∧ m'.frameId = msg.frameId ∧ ∀ l, m.exists l = true → AllUnknown m' l := by
  refine ⟨_, fromMessage_counts hg hn m, rfl, rfl, rfl, rfl, fun l hl i hi => ?_⟩
  obtain ⟨a, ha⟩ := exists_iff.mp hl
  obtain ⟨i1, i2, i3, i4⟩ := hi
  simp only [blank, clearAll, resize, setFrameId, setTimestamp] at i1 i2 i3 i4
  simp only [CostMap.at, blank, clearAll, resize, setFrameId, setTimestamp, ha, Option.map_some]
  rw [Mat.get?_setConstant, Mat.get?_const, if_pos (by omega)]
  rfl

namespace Demo
/-- A message of a 2 x 1 map with one layer. -/
def msg : CostMapMsg ℚ :=
  ⟨0, 0, "odom", 1, 2, 1, ⟨0, 0⟩, ["c"], [], [⟨[⟨"column_index", 1, 2⟩, ⟨"row_index", 2, 2⟩], 0, [8, 9]⟩], 0, 0⟩

theorem msg_ok : msg.Ok := by
  refine ⟨⟨by decide +kernel, by decide +kernel, by decide +kernel⟩, rfl, ?_⟩
  intro a ha
  have : a = ⟨[⟨"column_index", 1, 2⟩, ⟨"row_index", 2, 2⟩], 0, [8, 9]⟩ := by simpa [msg] using ha
  subst this
  exact ⟨⟨_, _, [], rfl, by decide, by decide +kernel, by decide +kernel⟩, by decide +kernel⟩
end Demo

/-- C49 is false: reading a message into a map that has other layers keeps them. -/
theorem C49_false : ¬ ∀ (m m' : CostMap ℚ) (msg : CostMapMsg ℚ), m.Coherent → fromMessage msg m = (.ok true, m') →
    ∀ l, l ∈ m'.layers ↔ l ∈ msg.layers := by
  intro h
  have e : (fromMessage Demo.msg Demo.base).1 = .ok true := by decide +kernel
  have := h Demo.base (fromMessage Demo.msg Demo.base).2 Demo.msg Demo.base_coherent (Prod.ext e rfl) "a"
  revert this
  decide +kernel

/-- C49 is false also for the other result: false is returned and the map is not what it was. -/
theorem C49_false_changes_map : ¬ ∀ (m m' : CostMap ℚ) (msg : CostMapMsg ℚ), m.Coherent →
    fromMessage msg m = (.ok false, m') → m'.size = m.size := by
  intro h
  have hg : ({ Demo.msg with data := [] } : CostMapMsg ℚ).GeometryOk :=
    ⟨by decide +kernel, by decide +kernel, by decide +kernel⟩
  obtain ⟨m', e, -, hs, -⟩ := C49_false_return_destroys Demo.base hg (by decide)
  have := h _ _ _ Demo.base_coherent e
  rw [hs] at this
  revert this
  decide +kernel

example : ∃ m', fromMessage Demo.msg (CostMap.new []) = (.ok true, m') ∧ m'.at "c" ⟨1, 0⟩ = .ok 9 :=
  ⟨_, Prod.ext (by decide +kernel) rfl, by decide +kernel⟩

/-! ## Which messages are survived -/

/-- C50, exactly: `fromMessage` returns (true or false) if and only if the geometry is positive and either the numbers
of names and arrays differ or every array is a column-major array of the size of the map. In the full statement it would
always return; see `C50_false`. The length is at least half a cell: otherwise the map has no cells. -/
theorem C50_returns_iff_partial {m : CostMap K} (hc : m.Coherent) (msg : CostMapMsg K)
    (hx : msg.resolution / 2 ≤ msg.lengthX) :
    (∃ b, (fromMessage msg m).1 = .ok b) ↔
      msg.GeometryOk ∧ (msg.layers.length ≠ msg.data.length ∨ msg.Ok) := by
  constructor
  · rintro ⟨b, hb⟩
    obtain ⟨hg, ⟨-, hn, -⟩ | ⟨-, hn, m1, e1, -⟩⟩ := fromMessage_inv (show fromMessage msg m = (.ok b, _) from Prod.ext hb rfl)
    · exact ⟨hg, .inl hn⟩
    · refine ⟨hg, .inr ⟨hg, hn, fun a ha => ?_⟩⟩
      obtain ⟨l, hl⟩ : ∃ l, (l, a) ∈ msg.layers.zip msg.data := by
        obtain ⟨k, hk, rfl⟩ := List.mem_iff_getElem.1 ha
        refine ⟨msg.layers[k], ?_⟩
        rw [List.mem_iff_getElem]
        exact ⟨k, by simp [hn, hk], by simp⟩
      obtain ⟨M, hM, hr, hcl⟩ := addArrays_ok e1 _ hl
      have bs : (blank msg m).size = msg.size := rfl
      rw [bs] at hr hcl
      have px : 0 < msg.size.x := by
        have h1 : 1 / 2 ≤ msg.lengthX / msg.resolution := by rw [le_div_iff₀ hg.res]; linarith
        have := (roundHalfAway_spec (x := msg.lengthX / msg.resolution) (by linarith [show (0:K) < 1/2 by norm_num])).2
        have : (0 : K) < (roundHalfAway (msg.lengthX / msg.resolution) : K) := by linarith
        exact_mod_cast this
      have := MultiArray.shaped_of_toMat hM (by omega)
      rwa [hr, hcl] at this
  · rintro ⟨hg, hn | hok⟩
    · exact ⟨false, by rw [fromMessage_counts hg hn]⟩
    · by_cases hn : msg.layers.length = msg.data.length
      · obtain ⟨m', e, -⟩ := addArrays_spec (ps := msg.layers.zip msg.data) (blank_coherent hg hc) (by
          intro p hp
          obtain ⟨M, h1, h2, h3, -⟩ := (hok.arrays p.2 (List.of_mem_zip (show (p.1, p.2) ∈ _ from hp)).2).toMat
          exact ⟨M, h1, h2, h3⟩)
        exact ⟨true, by rw [fromMessage_run hg hn e]⟩
      · exact ⟨false, by rw [fromMessage_counts hg hn]⟩

/-- C50. A message whose geometry is not positive stops the process on an assertion, whatever the map. -/
theorem C50_bad_geometry_asserts (m : CostMap K) {msg : CostMapMsg K} (h : ¬ msg.GeometryOk) :
    (fromMessage msg m).1 = .assertFail := by rw [fromMessage_geometry h]

/-- C50 is false: the message of a map without geometry stops the process on an assertion; an array shorter than its
size is read beyond its end; an array with one dimension throws; one without dimensions is undefined behaviour; a
row-major array and one of the wrong size stop the process on an assertion. -/
theorem C50_false :
    (∃ msg, (CostMap.new [] : CostMap ℚ).toMessage = .ok msg ∧ (fromMessage msg (CostMap.new [])).1 = .assertFail) ∧
    (∃ msg : CostMapMsg ℚ, (fromMessage msg (CostMap.new [])).1 = .ub) ∧
    (∃ msg : CostMapMsg ℚ, (fromMessage msg (CostMap.new [])).1 = .thrown .outOfRange) ∧
    (∃ msg : CostMapMsg ℚ, msg.GeometryOk ∧ (fromMessage msg (CostMap.new [])).1 = .assertFail) := by
  refine ⟨⟨⟨0, 0, "", 0, 0, 0, ⟨0, 0⟩, [], [], [], 0, 0⟩, by rfl, by decide +kernel⟩,
    ⟨{ Demo.msg with data := [⟨[⟨"column_index", 1, 2⟩, ⟨"row_index", 2, 2⟩], 0, [8]⟩] }, by decide +kernel⟩,
    ⟨{ Demo.msg with data := [⟨[⟨"column_index", 1, 2⟩], 0, [8, 9]⟩] }, by decide +kernel⟩,
    ⟨{ Demo.msg with data := [⟨[⟨"row_index", 2, 2⟩, ⟨"column_index", 1, 1⟩], 0, [8, 9]⟩] },
      ⟨by decide +kernel, by decide +kernel, by decide +kernel⟩, by decide +kernel⟩⟩

example : ∃ b, (fromMessage Demo.msg Demo.base).1 = .ok b :=
  (C50_returns_iff_partial Demo.base_coherent Demo.msg (by decide +kernel)).2
    ⟨Demo.msg_ok.geo, .inr Demo.msg_ok⟩

end CostMapModel

import Verif.Lemmas.MachineMerge
import Verif.Props.Machine
import Verif.Props.RoundedMerge

/-!
# Merging maps with 32-bit integers: C79

`addDataFromI` and `extendToIncludeI` do their index arithmetic in `int`s and give `Res.ub` on overflow. They agree with the
functions of C76 and C77 on maps with at most `2^29` rows and columns; an extension needs in addition that both maps lie within
`2^25` cells of the origin of the frame, or the extended map may be too large for an `int`.
-/

set_option linter.unusedSectionVars false

namespace CostMapModel
open CostMap
variable {K : Type} [Field K] [LinearOrder K] [IsStrictOrderedRing K] [FloorRing K]

theorem mergeCellRd_keeps {rd : K → K} {P : CostMap K → Prop} (h : Stable P) (o : CostMap K) (w : Bool) (ls : List String)
    (i : Idx) : Act.Keeps P (mergeCellRd rd o w ls i) := by
  refine (Act.Keeps.read _).bind fun v => Act.Keeps.ite (Act.Keeps.pure ()) ?_
  intro m hm
  dsimp only
  split
  · exact hm
  · split
    · exact hm
    · exact Act.Keeps.forEach (h.mergeLayer o i _) ls m hm

theorem restoreCellRd_keeps {rd : K → K} {P : CostMap K → Prop} (h : Stable P) (o : CostMap K) (i : Idx) :
    Act.Keeps P (restoreCellRd rd o i) := by
  refine (Act.Keeps.read _).bind fun v => Act.Keeps.ite (Act.Keeps.pure ()) ?_
  intro m hm
  dsimp only
  split
  · exact hm
  · split
    · exact hm
    · exact Act.Keeps.forEach (fun l => (Act.Keeps.lift _).bind fun _ => h.keeps (setAt_shape l i _)) _ m hm

theorem mergeCellI_eq {rd : K → K} (hrd : DoublePrecision rd) {o : CostMap K} (ho : o.GeoRd rd) (hto : o.Tame) (hso : o.Small)
    (w : Bool) (ls : List String) (i : Idx) {m : CostMap K} (hm : m.Fits) :
    mergeCellI rd o w ls i m = mergeCellRd rd o w ls i m := by
  unfold mergeCellI mergeCellRd Act.bind Act.read
  dsimp only
  cases m.isValid i with
  | ok v =>
    dsimp only
    split
    · rfl
    · dsimp only
      rw [C79_getPosition rd hm.start hm.small i]
      cases m.getPositionRd rd i with
      | none => rfl
      | some p =>
        dsimp only
        by_cases hin : o.isInsideRd rd p = true
        · rw [C79_getIndex hrd ho hto hso (C79_inside_near hrd ho hto hso hin)]
        · rw [if_pos (by simpa using hin), if_pos (by simpa using hin)]
  | _ => rfl

theorem restoreCellI_eq {rd : K → K} (hrd : DoublePrecision rd) {o : CostMap K} (ho : o.GeoRd rd) (hto : o.Tame)
    (hso : o.Small) (i : Idx) {m : CostMap K} (hm : m.Fits) : restoreCellI rd o i m = restoreCellRd rd o i m := by
  unfold restoreCellI restoreCellRd Act.bind Act.read
  dsimp only
  cases m.isValid i with
  | ok v =>
    dsimp only
    split
    · rfl
    · dsimp only
      rw [C79_getPosition rd hm.start hm.small i]
      cases m.getPositionRd rd i with
      | none => rfl
      | some p =>
        dsimp only
        by_cases hin : o.isInsideRd rd p = true
        · rw [C79_getIndex hrd ho hto hso (C79_inside_near hrd ho hto hso hin)]
        · rw [if_pos (by simpa using hin), if_pos (by simpa using hin)]
  | _ => rfl

/-- C79. Merging without extension does not overflow: it is the merge of C76, whatever the layers, the costs and the grids. -/
theorem C79_addDataFrom {rd : K → K} (hrd : DoublePrecision rd) {m other : CostMap K} (hs : m.startIndex.In m.size)
    (hm : m.Small) (ho : other.GeoRd rd) (hto : other.Tame) (hso : other.Small) (overwrite all : Bool) (ls : List String) :
    addDataFromI rd other false overwrite all ls m = addDataFromRd rd other false overwrite all ls m := by
  have key : ∀ (req : List String) (s : CostMap K), s.Fits →
      (Act.bind (Act.forEach addMissing req) fun _ => Act.bind (forCellsI (mergeCellI rd other overwrite req)) fun _ =>
        Act.pure true) s =
      (Act.bind (Act.forEach addMissing req) fun _ => Act.bind (forCells (mergeCellRd rd other overwrite req)) fun _ =>
        Act.pure true) s := by
    intro req s hs
    have hk := Act.Keeps.forEach stable_fits.addMissing req s hs
    unfold Act.bind
    rcases e : Act.forEach addMissing req s with ⟨r, s'⟩
    rw [e] at hk
    cases r with
    | ok u =>
      dsimp only at hk ⊢
      rw [forCellsI_eq (f := mergeCellI rd other overwrite req) (g := mergeCellRd rd other overwrite req)
        (fun i => mergeCellRd_keeps stable_fits other overwrite req i)
        (fun i t ht => mergeCellI_eq hrd ho hto hso overwrite req i ht) hk]
    | _ => rfl
  unfold addDataFromI addDataFromRd
  exact key _ m ⟨hs, hm⟩

/-- The map lies within `2^25` cells of the origin: it has few cells. -/
theorem small_of_within {rd : K → K} (hrd : DoublePrecision rd) {m : CostMap K} (h : m.GeoRd rd) {B : K}
    (hB : B ≤ 2 ^ 25 * m.resolution) (hm : m.Within B m.resolution) : m.Small ∧ m.Tame := by
  have hr := h.res_pos
  have step : ∀ {n : Int} {pos len : K}, 1 ≤ n → len = rd ((n : K) * m.resolution) →
      |pos| + |len| + m.resolution ≤ B → n ≤ 2 ^ 29 ∧ extent n pos m.resolution ≤ 2 ^ 47 * m.resolution := by
    intro n pos len hn hl hw
    have h1 : (1 : K) ≤ n := by exact_mod_cast hn
    have h2 := rd_lower hrd ((n : K) * m.resolution)
    rw [← hl, abs_of_nonneg (mul_nonneg (by linarith) hr.le)] at h2
    have := abs_nonneg pos
    constructor
    · have h3 : (n : K) * m.resolution ≤ 2 ^ 29 * m.resolution := by linarith
      exact_mod_cast le_of_mul_le_mul_right h3 hr
    · unfold extent
      rw [add_mul]
      linarith
  exact ⟨⟨(step h.size_x h.len_x hm.x).1, (step h.size_y h.len_y hm.y).1⟩,
    ⟨(step h.size_x h.len_x hm.x).2, (step h.size_y h.len_y hm.y).2⟩⟩

/-- C79. Extending does not overflow when both maps lie within `2^25` cells of the origin of the frame: it is the extension of
C77, and the extended map has at most `2^29` cells along each axis. -/
theorem C79_extendToInclude {rd : K → K} (hrd : DoublePrecision rd) {m other : CostMap K} (h : m.GeoRd rd) {B : K}
    (hB : B ≤ 2 ^ 25 * m.resolution) (hm : m.Within B m.resolution) (ho : other.Within B m.resolution) :
    extendToIncludeI rd other m = extendToIncludeRd rd other m ∧
    (extendToIncludeRd rd other m).2.Small ∧
    (extendToIncludeRd rd other m).2.startIndex.In (extendToIncludeRd rd other m).2.size := by
  have hr := h.res_pos
  obtain ⟨hsm, htm⟩ := small_of_within hrd h hB hm
  have hB0 : 0 ≤ B := by
    have := hm.x; have := abs_nonneg m.position.x; have := abs_nonneg m.length.x; linarith
  have hB39 : B ≤ 2 ^ 39 * m.resolution := by linarith
  have hlen : ∀ {pos len pos' len' p l : K} {b : Bool}, |pos| + |len| + m.resolution ≤ B →
      |pos'| + |len'| + m.resolution ≤ B → extendAxisRd rd pos len pos' len' = (p, l, b) → l ≤ 2 ^ 30 * m.resolution := by
    intro pos len pos' len' p l b h1 h2 e
    obtain ⟨-, g2, -, g4, g5⟩ := extendAxisRd_near hrd (B := B) (by linarith : |pos| + |len| ≤ B)
      (by linarith : |pos'| + |len'| ≤ B)
    rw [e, abs_le] at g2
    dsimp only at g2
    have : 16 * B / 2 ^ 53 ≤ B := by rw [div_le_iff₀ (by positivity)]; linarith
    have := le_abs_self len; have := abs_nonneg pos
    linarith [g2.2]
  have hcells : ∀ {q : K} {N : Int}, |q| + ((N : K) + 1) * m.resolution ≤ 16 * B → N ≤ 2 ^ 29 := by
    intro q N hq
    have := abs_nonneg q
    have h3 : ((N : K)) * m.resolution ≤ 2 ^ 29 * m.resolution := by rw [add_mul] at hq; linarith
    exact_mod_cast le_of_mul_le_mul_right h3 hr
  rcases ex : extendAxisRd rd m.position.x m.length.x other.position.x other.length.x with ⟨px, lx, bx⟩
  rcases ey : extendAxisRd rd m.position.y m.length.y other.position.y other.length.y with ⟨py, ly, by'⟩
  unfold extendToIncludeI extendToIncludeRd
  rw [ex, ey]
  dsimp only
  by_cases hbr : (bx || by') = true
  · rw [if_pos hbr, if_pos hbr]
    obtain ⟨Nx, hNx⟩ : ∃ N, N = roundHalfAway (rd (lx / m.resolution)) := ⟨_, rfl⟩
    obtain ⟨Ny, hNy⟩ : ∃ N, N = roundHalfAway (rd (ly / m.resolution)) := ⟨_, rfl⟩
    obtain ⟨x1, x2, -, x5⟩ := extend_axis hrd hr h.size_x h.len_x hB39 hm.x ho.x ex hNx
    obtain ⟨y1, y2, -, y5⟩ := extend_axis hrd hr h.size_y h.len_y hB39 hm.y ho.y ey hNy
    have hsx := h.size_x
    have hsy := h.size_y
    have e1 : setGeometryRd rd ⟨lx, ly⟩ m.resolution ⟨px, py⟩ m = (.ok (), emptyRd rd m ⟨Nx, Ny⟩ ⟨px, py⟩) := by
      unfold setGeometryRd
      rw [if_neg (not_not.2 x1), if_neg (not_not.2 y1), if_neg (not_not.2 hr), ← hNx, ← hNy]
      rfl
    have e1' := (C79_setGeometry hrd m (len := ⟨lx, ly⟩) (r := m.resolution) (hlen hm.x ho.x ex) (hlen hm.y ho.y ey)
      ⟨px, py⟩).trans e1
    obtain ⟨q, e2⟩ : ∃ q, alignToRd rd m (emptyRd rd m ⟨Nx, Ny⟩ ⟨px, py⟩) = (.ok (), emptyRd rd m ⟨Nx, Ny⟩ q) := ⟨_, rfl⟩
    have hf : (emptyRd rd m ⟨Nx, Ny⟩ q).Fits :=
      ⟨⟨le_rfl, show 0 < Nx by omega, le_rfl, show 0 < Ny by omega⟩, ⟨hcells x5, hcells y5⟩⟩
    have e3 := forCellsI_eq (fun i => restoreCellRd_keeps (rd := rd) stable_fits m i)
      (fun i t ht => restoreCellI_eq hrd h htm hsm i ht) hf
    have hk : Fits (Act.bind (forCells (restoreCellRd rd m)) (fun _ => Act.pure true) (emptyRd rd m ⟨Nx, Ny⟩ q)).2 :=
      ((forCells_keeps fun i => restoreCellRd_keeps (rd := rd) stable_fits m i).bind fun _ => Act.Keeps.pure true) _ hf
    rw [Act.bind_ok e1', Act.bind_ok e1, Act.bind_ok e2, Act.bind_ok e2]
    refine ⟨?_, hk.small, hk.start⟩
    unfold Act.bind
    rw [e3]
  · rw [if_neg hbr, if_neg hbr]
    exact ⟨rfl, hsm, h.start⟩

/-- C79. Merging with extension does not overflow when both maps lie within `2^25` cells of the origin of the frame. -/
theorem C79_addDataFrom_extended {rd : K → K} (hrd : DoublePrecision rd) {m other : CostMap K} (h : m.GeoRd rd) {B : K}
    (hB : B ≤ 2 ^ 25 * m.resolution) (hm : m.Within B m.resolution) (ho : other.Within B m.resolution)
    (hg : other.GeoRd rd) (hto : other.Tame) (hso : other.Small) (overwrite all : Bool) (ls : List String) :
    addDataFromI rd other true overwrite all ls m = addDataFromRd rd other true overwrite all ls m := by
  obtain ⟨e, h1, h2⟩ := C79_extendToInclude hrd h hB hm ho
  rw [C77_extension_then_merge]
  show Act.bind (extendToIncludeI rd other) (fun _ => addDataFromI rd other false overwrite all ls) m = _
  unfold Act.bind
  rw [e]
  rcases e' : extendToIncludeRd rd other m with ⟨r, s⟩
  rw [e'] at h1 h2
  cases r with
  | ok b => exact C79_addDataFrom hrd h2 h1 hg hto hso overwrite all ls
  | _ => rfl

namespace Demo

/-- A map of one cell of size 1 around `(c, 0)` in `double` arithmetic. -/
def single (c : ℚ) : CostMap ℚ :=
  let m1 := (CostMap.setGeometryRd toDouble ⟨1, 1⟩ 1 ⟨c, 0⟩ (CostMap.new [])).2
  (CostMap.add "a" (Mat.const 1 1 7) m1).2

end Demo

/-- D33. Extending overflows when the other map is too far away: a map of one cell around the origin and one of one cell
`2^31` cells from it. The extended map would have `2^31 + 1` rows. -/
theorem C79_false_far_extension :
    (addDataFromI toDouble (Demo.single (2 ^ 31)) true true true [] (Demo.single 0)).1 = .ub := by
  decide +kernel

/-- Two maps of 5 x 5 cells of 0.1, two cells apart: without extension. -/
example : addDataFromI toDouble (Demo.dm 5 4 9) false true true [] (Demo.dm 5 0 7) =
    addDataFromRd toDouble (Demo.dm 5 4 9) false true true [] (Demo.dm 5 0 7) :=
  C79_addDataFrom C73_double Demo.dm_zero.1.start ⟨by decide +kernel, by decide +kernel⟩ Demo.dm_four.1
    ⟨by decide +kernel, by decide +kernel⟩ ⟨by decide +kernel, by decide +kernel⟩ true true []

/-- The same with extension. -/
example : addDataFromI toDouble (Demo.dm 5 4 9) true true true [] (Demo.dm 5 0 7) =
    addDataFromRd toDouble (Demo.dm 5 4 9) true true true [] (Demo.dm 5 0 7) :=
  C79_addDataFrom_extended C73_double Demo.dm_zero.1 (B := 100) (by decide +kernel) Demo.dm_zero.2.2 Demo.dm_four.2.2.1
    Demo.dm_four.1 ⟨by decide +kernel, by decide +kernel⟩ ⟨by decide +kernel, by decide +kernel⟩ true true []

/-- An extension that does not overflow. -/
example : (extendToIncludeI toDouble (Demo.dm 5 4 9) (Demo.dm 5 0 7)).1 = .ok true ∧
    (extendToIncludeI toDouble (Demo.dm 5 4 9) (Demo.dm 5 0 7)).2.size = ⟨7, 5⟩ := by decide +kernel

end CostMapModel

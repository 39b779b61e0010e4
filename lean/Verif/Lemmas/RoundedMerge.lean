import Verif.Lemmas.Rounded
import Verif.Lemmas.Merge
import Verif.Model.RoundedMerge
import Verif.Spec.RoundedMerge

/-!
# Merging in rounded arithmetic
-/

set_option linter.unusedSectionVars false

namespace CostMapModel
open CostMap
variable {K : Type} [Field K] [LinearOrder K] [IsStrictOrderedRing K] [FloorRing K]

namespace Axis
variable {rd : K → K} {n : Int} {pos len r T : K}

/-- A position in the interior of a cell passes the inside test and is found in that cell. -/
theorem cell_exact (h : Axis rd n pos len r T) (hrd : DoublePrecision rd) {u : Int} (hu : 0 ≤ u) (hu' : u < n) {p : K}
    (hp : |p - (pos + n * r / 2 - r / 2 - r * u)| ≤ r / 2 - 32 * (T / 2 ^ 53)) :
    0 ≤ fromBorderRd rd p len pos ∧ fromBorderRd rd p len pos < len ∧ cellRd rd p len pos r = u := by
  have g2 := h.r_pos; have g1 := h.nr_pos
  have hl := h.len_err hrd
  have hun := h.unit
  have hu0 := div_pos h.T_pos (show (0 : K) < 2 ^ 53 by positivity)
  have u0 : (0 : K) ≤ r * u := mul_nonneg g2.le (by exact_mod_cast hu)
  have u1 : r * u + r ≤ n * r := by
    have : (u : K) + 1 ≤ n := by exact_mod_cast hu'
    nlinarith
  have hp' := abs_le.1 hp
  have hpp : |p - pos| ≤ n * r / 2 + 24 * (T / 2 ^ 53) := by
    rw [abs_le]; constructor <;> linarith
  have hb := h.border_err hrd (by norm_num) (h.near_le hpp)
  have hq := h.quotient_err hrd hpp
  have d1 := h.unit_div
  have d0 := h.unit_div_pos
  refine ⟨?_, ?_, ?_⟩
  · rw [abs_le] at hb; linarith
  · rw [abs_le] at hb hl; linarith
  · have hz : |(pos + n * r / 2 - p) / r - (u + 1 / 2)| ≤ 1 / 2 - 32 * (T / 2 ^ 53 / r) := by
      have e : (pos + n * r / 2 - p) / r - (u + 1 / 2) = -(p - (pos + n * r / 2 - r / 2 - r * u)) / r := by
        field_simp; ring
      have e2 : (1 : K) / 2 - 32 * (T / 2 ^ 53 / r) = (r / 2 - 32 * (T / 2 ^ 53)) / r := by field_simp
      rw [e, abs_div, abs_neg, abs_of_pos g2, e2]
      exact div_le_div_of_nonneg_right hp g2.le
    have hc : cellRd rd p len pos r = -truncToInt (rd (rd (rd (p - toOriginRd rd len) - pos) / r)) := rfl
    rw [abs_le] at hq hz
    rw [hc]
    have hu0 : (0 : K) ≤ u := by exact_mod_cast hu
    rw [neg_truncToInt_of_nonpos (by linarith), Int.floor_eq_iff]
    constructor <;> linarith

/-- A position outside, by more than rounding errors, fails the inside test. -/
theorem outside (h : Axis rd n pos len r T) (hrd : DoublePrecision rd) {p : K}
    (hp : n * r / 2 + 32 * (T / 2 ^ 53) ≤ |p - pos|) :
    ¬ (0 ≤ fromBorderRd rd p len pos ∧ fromBorderRd rd p len pos < len) := by
  rintro ⟨h0, h1⟩
  have := h.inside_near hrd h0 h1
  have hu0 := div_pos h.T_pos (show (0 : K) < 2 ^ 53 by positivity)
  linarith

/-- The computed centre of a cell, looked up in a map on the same grid. -/
theorem opposite {n' : Int} {pos' len' T' : K} (h : Axis rd n pos len r T) (h' : Axis rd n' pos' len' r T')
    (hrd : DoublePrecision rd) {k u : Int} (hu : 0 ≤ u) (hu' : u < n)
    (hk : |(pos' + n' * r / 2) - (pos + n * r / 2) - k * r| ≤ r / 4)
    (hT : 48 * (T / 2 ^ 53) ≤ r / 16) (hT' : 128 * (T' / 2 ^ 53) ≤ r / 4) :
    (0 ≤ u + k ∧ u + k < n' →
      0 ≤ fromBorderRd rd (centreRd rd u len pos r) len' pos' ∧
      fromBorderRd rd (centreRd rd u len pos r) len' pos' < len' ∧
      cellRd rd (centreRd rd u len pos r) len' pos' r = u + k) ∧
    (¬ (0 ≤ u + k ∧ u + k < n') →
      ¬ (0 ≤ fromBorderRd rd (centreRd rd u len pos r) len' pos' ∧
        fromBorderRd rd (centreRd rd u len pos r) len' pos' < len')) := by
  have hc := h.centre_err hrd hu hu'
  have g2 := h.r_pos
  have u0 := h.unit_nonneg
  have u0' := h'.unit_nonneg
  have hn := h'.nr_pos
  generalize centreRd rd u len pos r = p at *
  rw [abs_le] at hk hc
  constructor
  · rintro ⟨a, b⟩
    refine h'.cell_exact hrd a b ?_
    push_cast
    rw [abs_le]
    constructor <;> linarith
  · intro hno
    refine h'.outside hrd ?_
    by_cases a : 0 ≤ u + k
    · have b : n' ≤ u + k := by
        by_contra hb
        exact hno ⟨a, by omega⟩
      have b' : (n' : K) ≤ u + k := by exact_mod_cast b
      have : (n' : K) * r ≤ (u + k) * r := mul_le_mul_of_nonneg_right b' g2.le
      rw [add_mul] at this
      refine le_trans ?_ (neg_le_abs _)
      linarith
    · have a' : (u : K) + k ≤ -1 := by exact_mod_cast (by omega : u + k ≤ -1)
      have : ((u : K) + k) * r ≤ -1 * r := mul_le_mul_of_nonneg_right a' g2.le
      rw [add_mul] at this
      refine le_trans ?_ (le_abs_self _)
      linarith

end Axis

namespace CostMap

theorem logical_eq_unwrap {m : CostMap K} {i : Idx} (hi : i.In m.size) :
    m.logical i = unwrapIdx i m.size m.startIndex := by
  unfold unwrapIdx logical
  split
  · rename_i h0
    obtain ⟨h1, h2, h3, h4⟩ := hi
    rw [h0]; ext
    · simp [Int.emod_eq_of_lt h1 h2]
    · simp [Int.emod_eq_of_lt h3 h4]
  · rfl

/-- Where the computed centre of a cell of `m` is found in `o`. -/
def FoundAt (rd : K → K) (m o : CostMap K) (i : Idx) (t : Option Idx) : Prop :=
  ∃ p, m.getPositionRd rd i = some p ∧
    match t with
    | none => o.isInsideRd rd p = false
    | some j => o.isInsideRd rd p = true ∧ (o.getIndexRd rd p).1 = j ∧ j.In o.size

theorem getPositionRd_congr {rd : K → K} {m m' : CostMap K} (h : SameGeometry m m') (i : Idx) :
    m'.getPositionRd rd i = m.getPositionRd rd i := by
  simp only [getPositionRd, h.length, h.resolution, h.position, h.size, h.startIndex]

theorem FoundAt.congr {rd : K → K} {m m' o : CostMap K} (h : SameGeometry m m') {i : Idx} {t : Option Idx}
    (hf : FoundAt rd m o i t) : FoundAt rd m' o i t := by
  obtain ⟨p, hp, ht⟩ := hf
  exact ⟨p, (getPositionRd_congr h i).trans hp, ht⟩

theorem tame_unit {n : Int} {pos len r T : K} {rd : K → K} (h : Axis rd n pos len r T) (ht : T ≤ 2 ^ 43 * r) :
    1024 * (T / 2 ^ 53) ≤ r := by
  rw [← mul_div_assoc, div_le_iff₀ (by positivity)]
  have := h.r_pos
  nlinarith

theorem axis43_x {rd : K → K} {m : CostMap K} (h : m.GeoRd rd) (ht : m.Tame43) :
    Axis rd m.size.x m.position.x m.length.x m.resolution (extent m.size.x m.position.x m.resolution) :=
  ⟨h.res_pos, h.size_x, h.len_x, rfl, ht.x.trans (by have := h.res_pos; nlinarith)⟩

theorem axis43_y {rd : K → K} {m : CostMap K} (h : m.GeoRd rd) (ht : m.Tame43) :
    Axis rd m.size.y m.position.y m.length.y m.resolution (extent m.size.y m.position.y m.resolution) :=
  ⟨h.res_pos, h.size_y, h.len_y, rfl, ht.y.trans (by have := h.res_pos; nlinarith)⟩

/-- A cell of a map on the same grid is found exactly. -/
theorem found_on_grid {rd : K → K} (hrd : DoublePrecision rd) {m o : CostMap K} (h : m.GeoRd rd) (ht : m.Tame43)
    (ho : o.GeoRd rd) (hto : o.Tame43) {k : Idx} (hk : OnGrid (m.resolution / 4) m o k) {i : Idx} (hi : i.In m.size) :
    FoundAt rd m o i (if (m.logical i + k).In o.size then some (bufferIdx (m.logical i + k) o.size o.startIndex)
      else none) := by
  obtain ⟨u1, u2, u3, u4⟩ := unwrapIdx_in hi h.start
  have ax := axis43_x h ht
  have ay := axis43_y h ht
  have ax' := axis43_x ho hto
  have ay' := axis43_y ho hto
  have tx := tame_unit ax ht.x
  have ty := tame_unit ay ht.y
  have tx' := tame_unit ax' hto.x
  have ty' := tame_unit ay' hto.y
  have hr := h.res_pos
  have hx := hk.x
  have hy := hk.y
  simp only [corner] at hx hy
  rw [hk.res] at ax' ay' tx' ty' hx hy
  obtain ⟨x1, x2⟩ := ax.opposite ax' hrd u1 u2 hx (by linarith) (by linarith)
  obtain ⟨y1, y2⟩ := ay.opposite ay' hrd u3 u4 hy (by linarith) (by linarith)
  refine ⟨_, by simp only [getPositionRd, positionFromIndexRd, inRange_iff.mpr hi, if_true]; rfl, ?_⟩
  rw [logical_eq_unwrap hi]
  by_cases hv : (unwrapIdx i m.size m.startIndex + k).In o.size
  · rw [if_pos hv]
    have hv' := hv
    obtain ⟨v1, v2, v3, v4⟩ := hv
    obtain ⟨a1, a2, a3⟩ := x1 ⟨v1, v2⟩
    obtain ⟨b1, b2, b3⟩ := y1 ⟨v3, v4⟩
    refine ⟨?_, ?_, bufferIdx_in hv' ho.start⟩
    · simp only [isInsideRd, withinMapRd, Bool.and_eq_true, decide_eq_true_eq]
      exact ⟨⟨⟨a1, b1⟩, a2⟩, b2⟩
    · simp only [getIndexRd, indexFromPositionRd, hk.res]
      rw [a3, b3]; rfl
  · rw [if_neg hv]
    show o.isInsideRd rd _ = false
    rw [Bool.eq_false_iff]
    simp only [isInsideRd, withinMapRd, Bool.and_eq_true, decide_eq_true_eq, ne_eq]
    rintro ⟨⟨⟨a1, b1⟩, a2⟩, b2⟩
    apply hv
    by_contra hn
    have h1 : ¬ ¬ _ := fun hx => x2 hx ⟨a1, a2⟩
    have h2 : ¬ ¬ _ := fun hy => y2 hy ⟨b1, b2⟩
    rw [not_not] at h1 h2
    exact hn ⟨h1.1, h1.2, h2.1, h2.2⟩

/-! ## The bodies of the loops -/

/-- The valid cost of layer `l` at cell `t` of `o`. -/
def validOf (o : CostMap K) (l : String) : Option Idx → Option Cost
  | none => none
  | some j => match o.at l j with
    | .ok c => if c = NO_INFORMATION then none else some c
    | _ => none

theorem mergeLayer_at {other : CostMap K} (hc : other.Coherent) {j : Idx} (hj : j.In other.size) (i : Idx) {l : String}
    (hl : other.exists l = true) (s : CostMap K) :
    mergeLayer other i j l s =
      match validOf other l (some j) with | none => (.ok (), s) | some c => setAt l i c s := by
  obtain ⟨c, e⟩ := hc.at_ok hl hj
  unfold mergeLayer validOf
  by_cases hn : c = NO_INFORMATION
  · simp [Act.bind, Act.lift, isValidLayer, e, hn, Res.map, Act.pure]
  · simp [Act.bind, Act.lift, isValidLayer, e, hn, Res.map]

open Classical in
theorem mergeCellRd_spec {rd : K → K} {other : CostMap K} (hoc : other.Coherent) (ow : Bool) {ls : List String}
    (hls : ∀ l ∈ ls, other.exists l = true) {m : CostMap K} (hc : m.Coherent)
    (hb : ∀ l ∈ m.basicLayers, m.exists l = true) (hex : ∀ l ∈ ls, m.exists l = true) {i : Idx} (hi : i.In m.size)
    {t : Option Idx} (ht : FoundAt rd m other i t) :
    ∃ m', mergeCellRd rd other ow ls i m = (.ok (), m') ∧ SameShape m m' ∧ (∀ l j, j ≠ i → m'.at l j = m.at l j) ∧
      ∀ l, m'.at l i =
        match (if l ∈ ls ∧ (ow = true ∨ ¬ m.ValidCell i) then validOf other l t else none) with
        | none => m.at l i | some c => .ok c := by
  obtain ⟨b, hv, hv'⟩ := isValid_eq (i := i) (fun l hl => hc.at_ok (hb l hl) hi)
  have hv' : b = true ↔ m.ValidCell i := hv'
  obtain ⟨p, hp, ht⟩ := ht
  unfold mergeCellRd
  have e0 : (Act.read fun m : CostMap K => m.isValid i) m = (.ok b, m) := by simp [Act.read, hv]
  rw [Act.bind_ok e0]
  by_cases hskip : (b && !ow) = true
  · rw [if_pos hskip]
    refine ⟨m, rfl, SameShape.refl m, fun _ _ _ => rfl, fun l => ?_⟩
    simp only [Bool.and_eq_true, Bool.not_eq_true'] at hskip
    have : ¬ (ow = true ∨ ¬ m.ValidCell i) := by
      rw [hskip.2, ← hv', hskip.1]; simp
    simp [this]
  · rw [if_neg hskip]
    have hov : ow = true ∨ ¬ m.ValidCell i := by
      rw [← hv']
      cases b <;> cases ow <;> simp_all
    simp only [hp]
    cases t with
    | none =>
      have ht : other.isInsideRd rd p = false := ht
      simp only [ht, Bool.not_false, if_true]
      exact ⟨m, rfl, SameShape.refl m, fun _ _ _ => rfl, fun l => by simp [validOf]⟩
    | some j =>
      obtain ⟨hin, hj, hji⟩ := ht
      simp only [hin, Bool.not_true, Bool.false_eq_true, if_false, hj]
      obtain ⟨m', e, hs, ho, hat⟩ := forEach_layers (w := fun l => validOf other l (some j)) hc hi
        (fun l hl s => mergeLayer_at hoc hji i (hls l hl) s) hex
      refine ⟨m', e, hs, ho, fun l => ?_⟩
      rw [hat]
      by_cases hl : l ∈ ls
      · simp only [hl, hov, if_true, true_and]
        cases validOf other l (some j) <;> rfl
      · simp [hl]

open Classical in
theorem mergeCellsRd_spec {rd : K → K} {other : CostMap K} (hoc : other.Coherent) (ow : Bool) {ls : List String}
    (hls : ∀ l ∈ ls, other.exists l = true) {m : CostMap K} (hs : m.startIndex.In m.size) (hc : m.Coherent)
    (hb : ∀ l ∈ m.basicLayers, m.exists l = true) (hex : ∀ l ∈ ls, m.exists l = true) {t : Idx → Option Idx}
    (ht : ∀ i, i.In m.size → FoundAt rd m other i (t i)) :
    ∃ m', forCells (mergeCellRd rd other ow ls) m = (.ok (), m') ∧ SameShape m m' ∧
      ∀ l i, i.In m.size → m'.at l i =
        match (if l ∈ ls ∧ (ow = true ∨ ¬ m.ValidCell i) then validOf other l (t i) else none) with
        | none => m.at l i | some c => .ok c := by
  rw [forCells_eq hs]
  let new : String → Idx → Res Cost := fun l i =>
        match (if l ∈ ls ∧ (ow = true ∨ ¬ m.ValidCell i) then validOf other l (t i) else none) with
        | none => m.at l i | some c => .ok c
  obtain ⟨m', e, hs', -, hat⟩ := forEach_cells (new := new) (body := mergeCellRd rd other ow ls) (m₀ := m)
    (cells_nodup hs) (by
      intro i hi s hsh heq
      have hi := (mem_cells hs).mp hi
      have hvc : s.ValidCell i ↔ m.ValidCell i := by
        unfold ValidCell; rw [hsh.info.basicLayers]; simp only [heq]
      obtain ⟨s', e, h1, h2, h3⟩ := mergeCellRd_spec (rd := rd) hoc ow hls (hsh.coherent hc)
        (fun l hl => at_of_ne_exists hsh (hb l (by rw [← hsh.info.basicLayers]; exact hl)))
        (fun l hl => at_of_ne_exists hsh (hex l hl)) (i := i) (by rw [hsh.geo.size]; exact hi)
        ((ht i hi).congr hsh.geo)
      refine ⟨s', e, h1, h2, fun l => ?_⟩
      rw [h3]
      simp only [new, hvc, heq]) (SameShape.refl m) (fun _ _ _ => rfl)
  exact ⟨m', e, hs', fun l i hi => hat l i ((mem_cells hs).mpr hi)⟩

/-- The copy loop of the extension: every cell of the cleared map takes the costs of the cell of the old map at its
place. -/
theorem restoreCellsRd_spec {rd : K → K} {copy : CostMap K} (hcc : copy.Coherent) {m : CostMap K}
    (hs : m.startIndex.In m.size) (hc : m.Coherent) (hlay : m.layers = copy.layers)
    (hb : ∀ l ∈ m.basicLayers, m.exists l = true)
    (hclear : ∀ l i, m.exists l = true → i.In m.size → m.at l i = .ok NO_INFORMATION) {t : Idx → Option Idx}
    (ht : ∀ i, i.In m.size → FoundAt rd m copy i (t i)) :
    ∃ m', forCells (restoreCellRd rd copy) m = (.ok (), m') ∧ SameShape m m' ∧
      ∀ l, m.exists l = true → ∀ i, i.In m.size → m'.at l i =
        match t i with | none => .ok NO_INFORMATION | some j => copy.at l j := by
  rw [forCells_eq hs]
  have hex : ∀ l, m.exists l = true ↔ copy.exists l = true := fun l => by
    have h1 := hc.mem_iff l
    have h2 := hcc.mem_iff l
    rw [hlay] at h1
    exact h1.symm.trans h2
  let new : String → Idx → Res Cost := fun l i =>
    if m.exists l = true then (match t i with | none => .ok NO_INFORMATION | some j => copy.at l j) else m.at l i
  obtain ⟨m', e, hs', -, hat⟩ := forEach_cells (new := new) (body := restoreCellRd rd copy) (m₀ := m)
    (cells_nodup hs) (by
      intro i hi s hsh heq
      have hi := (mem_cells hs).mp hi
      have hvs : s.isValid i = .ok false := by
        have hsb : s.basicLayers = m.basicLayers := hsh.info.basicLayers
        have hat : ∀ l ∈ s.basicLayers, s.at l i = .ok NO_INFORMATION := by
          intro l hl
          rw [hsb] at hl
          rw [heq, hclear l i (hb l hl) hi]
        obtain ⟨b, hv, hv'⟩ := isValid_eq (m := s) (i := i) (fun l hl => ⟨_, hat l hl⟩)
        have : b = false := by
          rw [Bool.eq_false_iff, Ne, hv']
          rintro ⟨hne, hall⟩
          obtain ⟨l, hl⟩ := List.exists_mem_of_ne_nil _ hne
          obtain ⟨c, hc', hne'⟩ := hall l hl
          rw [hat l hl] at hc'
          cases hc'
          exact hne' rfl
        rw [hv, this]
      obtain ⟨p, hp, hti⟩ := (ht i hi).congr hsh.geo
      unfold restoreCellRd
      have e0 : (Act.read fun m : CostMap K => m.isValid i) s = (.ok false, s) := by simp [Act.read, hvs]
      rw [Act.bind_ok e0]
      simp only [Bool.false_eq_true, if_false, hp]
      cases hti' : t i with
      | none =>
        rw [hti'] at hti
        have hti : copy.isInsideRd rd p = false := hti
        simp only [hti, Bool.not_false, if_true]
        refine ⟨s, rfl, SameShape.refl s, fun _ _ _ => rfl, fun l => ?_⟩
        simp only [new, hti', heq]
        split
        · rename_i hl; exact hclear l i hl hi
        · rfl
      | some j =>
        rw [hti'] at hti
        obtain ⟨hin, hj, hji⟩ := hti
        simp only [hin, Bool.not_true, Bool.false_eq_true, if_false, hj]
        have hlay' : s.layers = m.layers := hsh.layers
        obtain ⟨s', e, h1, h2, h3⟩ := forEach_layers (body := restoreLayer copy i j)
          (w := fun l => match copy.at l j with | .ok c => some c | _ => none)
          (hsh.coherent hc) (i := i) (by rw [hsh.geo.size]; exact hi) (ls := s.layers)
          (fun l hl s => by
            rw [hlay', hlay] at hl
            obtain ⟨c, ec⟩ := hcc.at_ok ((hcc.mem_iff l).mp hl) hji
            simp [restoreLayer, Act.bind, Act.lift, ec])
          (fun l hl => ((hsh.coherent hc).mem_iff l).mp hl)
        refine ⟨s', e, h1, h2, fun l => ?_⟩
        rw [h3, hlay']
        simp only [new, hti']
        by_cases hl : m.exists l = true
        · have hl' : l ∈ m.layers := (hc.mem_iff l).mpr hl
          obtain ⟨c, ec⟩ := hcc.at_ok ((hex l).mp hl) hji
          simp [hl, hl', ec]
        · have hl' : l ∉ m.layers := fun h' => hl ((hc.mem_iff l).mp h')
          rw [Bool.not_eq_true] at hl
          simp [hl, hl', heq]) (SameShape.refl m) (fun _ _ _ => rfl)
  refine ⟨m', e, hs', fun l hl i hi => ?_⟩
  rw [hat l i ((mem_cells hs).mpr hi)]
  simp only [new, hl, if_true]

end CostMap
end CostMapModel

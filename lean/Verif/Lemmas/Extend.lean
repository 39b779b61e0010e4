import Verif.Lemmas.Merge
import Verif.Lemmas.Submap
import Mathlib.Tactic.LinearCombination

/-! # Extending a map -/

set_option linter.unusedSectionVars false

namespace CostMapModel
namespace CostMap
variable {K : Type} [Field K] [LinearOrder K] [IsStrictOrderedRing K] [FloorRing K]

section axis
variable {r c p d : K}

theorem over_nonneg (c l c' l' : K) : 0 ≤ over c l c' l' := le_max_left _ _
theorem under_nonneg (c l c' l' : K) : 0 ≤ under c l c' l' := le_max_left _ _

theorem extendAxis_eq (c l c' l' : K) :
    extendAxis c l c' l' = (c + (over c l c' l' - under c l c' l') / 2, l + over c l c' l' + under c l c' l',
      decide (0 < over c l c' l' ∨ 0 < under c l c' l')) := by
  unfold extendAxis over under
  by_cases h1 : c + l / 2 < c' + l' / 2 <;> by_cases h2 : c' - l' / 2 < c - l / 2
  · rw [max_eq_right (a := (0 : K)) (b := (c' + l' / 2) - (c + l / 2)) (by linarith),
      max_eq_right (a := (0 : K)) (b := (c - l / 2) - (c' - l' / 2)) (by linarith)]
    simp only [h1, h2, if_true, Prod.mk.injEq]
    refine ⟨by ring, trivial, ?_⟩
    symm; rw [decide_eq_true_eq]; left; linarith
  · push Not at h2
    rw [max_eq_right (a := (0 : K)) (b := (c' + l' / 2) - (c + l / 2)) (by linarith),
      max_eq_left (a := (0 : K)) (b := (c - l / 2) - (c' - l' / 2)) (by linarith)]
    simp only [h1, not_lt.mpr h2, if_true, if_false, Prod.mk.injEq]
    refine ⟨by ring, by ring_nf, ?_⟩
    symm; rw [decide_eq_true_eq]; left; linarith
  · push Not at h1
    rw [max_eq_left (a := (0 : K)) (b := (c' + l' / 2) - (c + l / 2)) (by linarith),
      max_eq_right (a := (0 : K)) (b := (c - l / 2) - (c' - l' / 2)) (by linarith)]
    simp only [h2, not_lt.mpr h1, if_true, if_false, Prod.mk.injEq]
    refine ⟨by ring, by ring_nf, ?_⟩
    symm; rw [decide_eq_true_eq]; right; linarith
  · push Not at h1 h2
    rw [max_eq_left (a := (0 : K)) (b := (c' + l' / 2) - (c + l / 2)) (by linarith),
      max_eq_left (a := (0 : K)) (b := (c - l / 2) - (c' - l' / 2)) (by linarith)]
    simp only [not_lt.mpr h1, not_lt.mpr h2, if_false, Prod.mk.injEq]
    refine ⟨by ring, by ring, ?_⟩
    simp

/-- Whole cells the centre is moved by before the parity correction. -/
def wholeShift (x : K) : Int :=
  if |x - truncToInt x| < 1 / 2 then truncToInt x else truncToInt x + 1

/-- The parity correction, in half cells. -/
def halfShift (x : K) (N n : Int) : Int := if Int.tmod N 2 ≠ Int.tmod n 2 then (if x < 0 then 1 else -1) else 0

theorem alignAxis_eq (hr : 0 < r) (N n : Int) :
    alignAxis r p c N n = c + r * (wholeShift ((p - c) / r) : K) + r / 2 * (halfShift ((p - c) / r) N n : K) := by
  unfold alignAxis
  extract_lets d shift q
  have hd : p = c + d := by simp [d]
  have hs : shift = r * (d / r - truncToInt (d / r)) := by
    simp only [shift, fmod]; field_simp
  have hq : q = c + r * (wholeShift (d / r) : K) := by
    have habs : |shift| < r / 2 ↔ |d / r - truncToInt (d / r)| < 1 / 2 := by
      rw [hs, abs_mul, abs_of_pos hr]
      constructor
      · intro h; by_contra hn; push Not at hn; nlinarith
      · intro h; nlinarith
    have hdr : r * (d / r) = d := by field_simp
    simp only [q, wholeShift]
    by_cases h : |d / r - truncToInt (d / r)| < 1 / 2
    · rw [if_pos (habs.mpr h), if_pos h, hs, hd]
      linear_combination hdr * (-1)
    · rw [if_neg (fun h' => h (habs.mp h')), if_neg h, hs, hd]
      push_cast
      linear_combination hdr * (-1)
  have hneg : d < 0 ↔ d / r < 0 := by
    rw [div_neg_iff]
    constructor
    · intro h; exact Or.inr ⟨h, hr⟩
    · rintro (⟨-, h⟩ | ⟨h, -⟩)
      · exact absurd h (not_lt.mpr hr.le)
      · exact h
  rw [hq]
  simp only [halfShift, hneg]
  split
  · split
    · push_cast; ring
    · push_cast; ring
  · simp [d]

theorem tmod_two (N n : Int) (hN : 0 ≤ N) (hn : 0 ≤ n) : Int.tmod N 2 ≠ Int.tmod n 2 ↔ N % 2 ≠ n % 2 := by
  rw [Int.tmod_eq_emod_of_nonneg hN, Int.tmod_eq_emod_of_nonneg hn]

/-- The cell offset between the old and the new grid. -/
theorem halfShift_parity (x : K) {N n : Int} (hN : 0 ≤ N) (hn : 0 ≤ n) :
    ∃ w : Int, 2 * w = halfShift x N n + (N - n) := by
  unfold halfShift
  rw [if_congr (tmod_two N n hN hn) rfl rfl]
  split
  · split
    · exact ⟨(1 + (N - n)) / 2, by omega⟩
    · exact ⟨(-1 + (N - n)) / 2, by omega⟩
  · exact ⟨(0 + (N - n)) / 2, by omega⟩

theorem round_mono_int {n : Int} {x : K} (hn : 0 < n) (h : (n : K) ≤ x) : n ≤ roundHalfAway x := by
  have hn' : (0 : K) < n := by exact_mod_cast hn
  unfold roundHalfAway
  rw [if_pos (by linarith), Int.le_floor]
  linarith

theorem round_eq_iff {x : K} (hx : 0 ≤ x) {n : Int} : roundHalfAway x = n ↔ (n : K) - 1 / 2 ≤ x ∧ x < n + 1 / 2 := by
  unfold roundHalfAway
  rw [if_pos hx, Int.floor_eq_iff]
  constructor
  · rintro ⟨a, b⟩; constructor <;> linarith
  · rintro ⟨a, b⟩; constructor <;> linarith

/-- Twice the distance, in cells, the centre moves. -/
def halfCells (x : K) (N n : Int) : Int := 2 * wholeShift x + halfShift x N n

theorem alignAxis_halfCells (hr : 0 < r) (N n : Int) :
    alignAxis r p c N n = c + r / 2 * (halfCells ((p - c) / r) N n : K) := by
  rw [alignAxis_eq hr, halfCells]; push_cast; ring

/-- How far the centre moves, compared with the growth `N - n`: never further than half the growth, except in one
case. -/
theorem halfCells_le {a b : K} (ha : 0 ≤ a) (hb : 0 ≤ b) {N n : Int} (hn : 0 < n) (hN : roundHalfAway ((n : K) + a + b) = N) :
    if N = n + 1 ∧ 1 ≤ b - a then halfCells ((a - b) / 2) N n = 3
    else |halfCells ((a - b) / 2) N n| ≤ N - n := by
  have hn' : (0 : K) < n := by exact_mod_cast hn
  have hNn : n ≤ N := by rw [← hN]; exact round_mono_int hn (by linarith)
  obtain ⟨hl, hu⟩ := (round_eq_iff (by linarith)).mp hN
  obtain ⟨M, rfl⟩ : ∃ M : Int, N = n + M := ⟨N - n, by ring⟩
  push_cast at hl hu
  have hM : 0 ≤ M := by omega
  have hpar : (Int.tmod (n + M) 2 ≠ Int.tmod n 2) ↔ M % 2 = 1 := by
    rw [tmod_two _ _ (by omega) hn.le]; omega
  have e1 : (n + M = n + 1 ∧ 1 ≤ b - a) ↔ (M = 1 ∧ 1 ≤ b - a) := by
    constructor <;> rintro ⟨h1, h2⟩ <;> exact ⟨by omega, h2⟩
  rw [if_congr e1 rfl rfl, add_sub_cancel_left]
  unfold halfCells wholeShift halfShift
  rw [if_congr (P := Int.tmod (n + M) 2 ≠ Int.tmod n 2) hpar rfl rfl]
  set x := (a - b) / 2 with hx
  by_cases hneg : x < 0
  · have ht : truncToInt x = -⌊-x⌋ := by unfold truncToInt; rw [if_neg (not_le.mpr hneg)]
    have hf1 := Int.floor_le (-x)
    have hf2 := Int.lt_floor_add_one (-x)
    have hf0 : 0 ≤ ⌊-x⌋ := Int.floor_nonneg.mpr (by linarith)
    rw [ht]
    generalize ⌊-x⌋ = f at hf1 hf2 hf0
    have habs : |x - ((-f : Int) : K)| = -x - f := by
      push_cast
      rw [abs_of_nonpos (by linarith)]; ring
    rw [habs]
    simp only [hneg, if_true]
    by_cases hh : -x - f < 1 / 2
    · rw [if_pos hh]
      have h2 : 2 * f ≤ M := by
        have : ((2 * f : Int) : K) < ((M + 1 : Int) : K) := by push_cast; linarith
        have : 2 * f < M + 1 := by exact_mod_cast this
        omega
      have hex : ¬ (M = 1 ∧ 1 ≤ b - a) := by
        rintro ⟨rfl, h1⟩
        have : f = 0 := by omega
        subst this
        push_cast at hh
        linarith
      rw [if_neg hex, abs_le]
      split <;> constructor <;> omega
    · rw [if_neg hh]
      push Not at hh
      have h2 : 2 * f + 1 ≤ M := by
        have : ((2 * f + 1 : Int) : K) < ((M + 1 : Int) : K) := by push_cast; linarith
        have : 2 * f + 1 < M + 1 := by exact_mod_cast this
        omega
      by_cases hM1 : M = 1
      · subst hM1
        have : f = 0 := by omega
        subst this
        push_cast at hh
        rw [if_pos ⟨rfl, by linarith⟩]
        norm_num
      · rw [if_neg (fun h => hM1 h.1), abs_le]
        split <;> constructor <;> omega
  · have hx0 : 0 ≤ x := not_lt.mp hneg
    have ht : truncToInt x = ⌊x⌋ := truncToInt_of_nonneg hx0
    have hf1 := Int.floor_le x
    have hf2 := Int.lt_floor_add_one x
    have hf0 : 0 ≤ ⌊x⌋ := Int.floor_nonneg.mpr hx0
    rw [ht]
    generalize ⌊x⌋ = f at hf1 hf2 hf0
    rw [abs_of_nonneg (a := x - (f : K)) (by linarith)]
    simp only [hneg, if_false]
    have hex : ¬ (M = 1 ∧ 1 ≤ b - a) := by rintro ⟨-, h1⟩; linarith
    rw [if_neg hex, abs_le]
    by_cases hh : x - f < 1 / 2
    · rw [if_pos hh]
      have h2 : 2 * f ≤ M := by
        have : ((2 * f : Int) : K) < ((M + 1 : Int) : K) := by push_cast; linarith
        have : 2 * f < M + 1 := by exact_mod_cast this
        omega
      split <;> constructor <;> omega
    · rw [if_neg hh]
      push Not at hh
      have h2 : 2 * f + 1 ≤ M := by
        have : ((2 * f + 1 : Int) : K) < ((M + 1 : Int) : K) := by push_cast; linarith
        have : 2 * f + 1 < M + 1 := by exact_mod_cast this
        omega
      split <;> constructor <;> omega

/-- Extension by whole cells: the size. -/
theorem round_whole (n a b : Int) (hn : 0 < n) (ha : 0 ≤ a) (hb : 0 ≤ b) :
    roundHalfAway ((n : K) + a + b) = n + a + b := by
  have : (0 : K) ≤ ((n + a + b : Int) : K) := by exact_mod_cast (by omega : 0 ≤ n + a + b)
  push_cast at this
  rw [round_eq_iff this]
  push_cast
  constructor <;> linarith

/-- Extension by whole cells: the centre moves by half the difference, unless that is a negative odd number of half
cells, in which case it ends up two cells too far up. -/
theorem halfCells_whole (n a b : Int) (hn : 0 < n) (ha : 0 ≤ a) (hb : 0 ≤ b) :
    halfCells (((a : K) - b) / 2) (n + a + b) n =
      if a < b ∧ (b - a) % 2 = 1 then a - b + 4 else a - b := by
  have hpar : (Int.tmod (n + a + b) 2 ≠ Int.tmod n 2) ↔ (a - b) % 2 = 1 := by
    rw [tmod_two _ _ (by omega) hn.le]; omega
  unfold halfCells wholeShift halfShift
  rw [if_congr (P := Int.tmod (n + a + b) 2 ≠ Int.tmod n 2) hpar rfl rfl]
  have hlt : ((a : K) - b) / 2 < 0 ↔ a < b := by
    constructor
    · intro h; have : (a : K) < b := by linarith
      exact_mod_cast this
    · intro h; have : (a : K) < b := by exact_mod_cast h
      linarith
  by_cases hab : a < b
  · have hfl : ⌊-(((a : K) - b) / 2)⌋ = (b - a) / 2 := by
      have : -(((a : K) - b) / 2) = ((b - a : Int) : K) / 2 := by push_cast; ring
      rw [this, Int.floor_eq_iff]
      have h1 : (b - a) / 2 * 2 ≤ b - a := by omega
      have h2 : b - a < ((b - a) / 2 + 1) * 2 := by omega
      have h1' : (((b - a) / 2 : Int) : K) * 2 ≤ ((b - a : Int) : K) := by exact_mod_cast h1
      have h2' : ((b - a : Int) : K) < ((((b - a) / 2 : Int) : K) + 1) * 2 := by exact_mod_cast h2
      constructor <;> linarith
    have ht : truncToInt (((a : K) - b) / 2) = -((b - a) / 2) := by
      unfold truncToInt; rw [if_neg (not_le.mpr (hlt.mpr hab)), hfl]
    rw [ht]
    simp only [hlt, hab, if_true, true_and]
    by_cases hodd : (b - a) % 2 = 1
    · have e : ((a : K) - b) / 2 - ((-((b - a) / 2) : Int) : K) = -(1 / 2) := by
        have h : b - a = 2 * ((b - a) / 2) + 1 := by omega
        have h' : ((b - a : Int) : K) = 2 * (((b - a) / 2 : Int) : K) + 1 := by exact_mod_cast h
        push_cast at h' ⊢
        linarith
      rw [e, abs_neg, abs_of_pos (by norm_num), if_neg (lt_irrefl _), if_pos (by omega), if_pos hodd]
      omega
    · have e : ((a : K) - b) / 2 - ((-((b - a) / 2) : Int) : K) = 0 := by
        have h : b - a = 2 * ((b - a) / 2) := by omega
        have h' : ((b - a : Int) : K) = 2 * (((b - a) / 2 : Int) : K) := by exact_mod_cast h
        push_cast at h' ⊢
        linarith
      rw [e, abs_zero, if_pos (by norm_num), if_neg (by omega), if_neg hodd]
      omega
  · have hx0 : 0 ≤ ((a : K) - b) / 2 := not_lt.mp (fun h => hab (hlt.mp h))
    have hfl : ⌊((a : K) - b) / 2⌋ = (a - b) / 2 := by
      have : ((a : K) - b) / 2 = ((a - b : Int) : K) / 2 := by push_cast; ring
      rw [this, Int.floor_eq_iff]
      have h1 : (a - b) / 2 * 2 ≤ a - b := by omega
      have h2 : a - b < ((a - b) / 2 + 1) * 2 := by omega
      have h1' : (((a - b) / 2 : Int) : K) * 2 ≤ ((a - b : Int) : K) := by exact_mod_cast h1
      have h2' : ((a - b : Int) : K) < ((((a - b) / 2 : Int) : K) + 1) * 2 := by exact_mod_cast h2
      constructor <;> linarith
    rw [truncToInt_of_nonneg hx0, hfl]
    simp only [hlt, hab, if_false, false_and]
    by_cases hodd : (a - b) % 2 = 1
    · have e : ((a : K) - b) / 2 - (((a - b) / 2 : Int) : K) = 1 / 2 := by
        have h : a - b = 2 * ((a - b) / 2) + 1 := by omega
        have h' : ((a - b : Int) : K) = 2 * (((a - b) / 2 : Int) : K) + 1 := by exact_mod_cast h
        push_cast at h' ⊢
        linarith
      rw [e, abs_of_pos (by norm_num), if_neg (lt_irrefl _), if_pos hodd]
      omega
    · have e : ((a : K) - b) / 2 - (((a - b) / 2 : Int) : K) = 0 := by
        have h : a - b = 2 * ((a - b) / 2) := by omega
        have h' : ((a - b : Int) : K) = 2 * (((a - b) / 2 : Int) : K) := by exact_mod_cast h
        push_cast at h' ⊢
        linarith
      rw [e, abs_zero, if_pos (by norm_num), if_neg hodd]
      omega

end axis

/-! ## The new geometry -/

/-- Rows and columns after the extension. -/
def extSize (m other : CostMap K) : Idx :=
  ⟨roundHalfAway ((m.length.x + over m.position.x m.length.x other.position.x other.length.x +
      under m.position.x m.length.x other.position.x other.length.x) / m.resolution),
   roundHalfAway ((m.length.y + over m.position.y m.length.y other.position.y other.length.y +
      under m.position.y m.length.y other.position.y other.length.y) / m.resolution)⟩

/-- Centre after the extension. -/
def extCenter (m other : CostMap K) : Vec K :=
  ⟨alignAxis m.resolution (m.position.x + (over m.position.x m.length.x other.position.x other.length.x -
      under m.position.x m.length.x other.position.x other.length.x) / 2) m.position.x (extSize m other).x m.size.x,
   alignAxis m.resolution (m.position.y + (over m.position.y m.length.y other.position.y other.length.y -
      under m.position.y m.length.y other.position.y other.length.y) / 2) m.position.y (extSize m other).y m.size.y⟩

/-- The empty map the old data is copied to. -/
def extEmpty (m other : CostMap K) : CostMap K :=
  { (m.resize (extSize m other)).clearAll with
    length := ⟨((extSize m other).x : K) * m.resolution, ((extSize m other).y : K) * m.resolution⟩,
    position := extCenter m other, startIndex := 0 }

theorem extSize_le {m : CostMap K} (h : m.Geo) (other : CostMap K) :
    m.size.x ≤ (extSize m other).x ∧ m.size.y ≤ (extSize m other).y := by
  have hr := h.res_pos
  constructor
  · refine round_mono_int h.size_x ?_
    rw [le_div_iff₀ hr, ← h.len_x]
    have := over_nonneg m.position.x m.length.x other.position.x other.length.x
    have := under_nonneg m.position.x m.length.x other.position.x other.length.x
    linarith
  · refine round_mono_int h.size_y ?_
    rw [le_div_iff₀ hr, ← h.len_y]
    have := over_nonneg m.position.y m.length.y other.position.y other.length.y
    have := under_nonneg m.position.y m.length.y other.position.y other.length.y
    linarith

theorem extEmpty_geo {m : CostMap K} (h : m.Geo) (other : CostMap K) : (extEmpty m other).Geo := by
  obtain ⟨hx, hy⟩ := extSize_le h other
  have := h.size_x
  have := h.size_y
  exact ⟨h.res_pos, show 0 < (extSize m other).x by omega, show 0 < (extSize m other).y by omega, rfl, rfl,
    ⟨le_refl _, show 0 < (extSize m other).x by omega, le_refl _, show 0 < (extSize m other).y by omega⟩⟩

theorem extEmpty_coherent {m : CostMap K} (h : m.Geo) (hc : m.Coherent) (other : CostMap K) :
    (extEmpty m other).Coherent := by
  have hg := extEmpty_geo h other
  refine ⟨hc.nodup, fun l => ?_, fun l a ha => ?_⟩
  · simp only [extEmpty, resize, clearAll, Option.map_map, Option.isSome_map]
    exact hc.mem_iff l
  · simp only [extEmpty, resize, clearAll, Option.map_map] at ha
    obtain ⟨b, -, rfl⟩ := Option.map_eq_some_iff.mp ha
    have h1 : 0 < (extSize m other).x := hg.size_x
    have h2 : 0 < (extSize m other).y := hg.size_y
    simp only [Function.comp, Mat.rows_setConstant, Mat.cols_setConstant, Mat.rows_const, Mat.cols_const]
    show _ = (extSize m other).x ∧ _ = (extSize m other).y
    omega

theorem extEmpty_at {m : CostMap K} (other : CostMap K) {l : String} (hl : m.exists l = true)
    {i : Idx} (hi : i.In (extSize m other)) : (extEmpty m other).at l i = .ok NO_INFORMATION := by
  obtain ⟨a, ha⟩ := exists_iff.mp hl
  obtain ⟨h1, h2, h3, h4⟩ := hi
  have hd : (extEmpty m other).data l =
      some ((Mat.const (extSize m other).x.toNat (extSize m other).y.toNat 0).setConstant NO_INFORMATION) := by
    simp [extEmpty, resize, clearAll, ha]
  rw [at_eq hd, Mat.get?_setConstant, Mat.get?_const, if_pos (by omega)]
  rfl

theorem extEmpty_exists (m other : CostMap K) (l : String) : (extEmpty m other).exists l = m.exists l := by
  simp [extEmpty, resize, clearAll, CostMap.exists]

/-- The code up to the copy loop. -/
theorem extendToInclude_eq {m : CostMap K} (h : m.Geo) (other : CostMap K) :
    extendToInclude other m =
      if (0 < over m.position.x m.length.x other.position.x other.length.x ∨
          0 < under m.position.x m.length.x other.position.x other.length.x) ∨
         (0 < over m.position.y m.length.y other.position.y other.length.y ∨
          0 < under m.position.y m.length.y other.position.y other.length.y)
      then Act.bind (forCells (restoreCell m)) (fun _ => Act.pure true) (extEmpty m other)
      else (.ok true, m) := by
  have hr := h.res_pos
  have hlx : 0 < m.length.x := by
    rw [h.len_x]; have := h.size_x; have : (0 : K) < m.size.x := by exact_mod_cast this
    positivity
  have hly : 0 < m.length.y := by
    rw [h.len_y]; have := h.size_y; have : (0 : K) < m.size.y := by exact_mod_cast this
    positivity
  have a1 := over_nonneg m.position.x m.length.x other.position.x other.length.x
  have a2 := under_nonneg m.position.x m.length.x other.position.x other.length.x
  have a3 := over_nonneg m.position.y m.length.y other.position.y other.length.y
  have a4 := under_nonneg m.position.y m.length.y other.position.y other.length.y
  unfold extendToInclude
  simp only [extendAxis_eq, Bool.or_eq_true, decide_eq_true_eq]
  by_cases hcond : (0 < over m.position.x m.length.x other.position.x other.length.x ∨
          0 < under m.position.x m.length.x other.position.x other.length.x) ∨
         (0 < over m.position.y m.length.y other.position.y other.length.y ∨
          0 < under m.position.y m.length.y other.position.y other.length.y)
  · rw [if_pos hcond, if_pos hcond]
    have e1 : setGeometry
        ⟨m.length.x + over m.position.x m.length.x other.position.x other.length.x +
            under m.position.x m.length.x other.position.x other.length.x,
          m.length.y + over m.position.y m.length.y other.position.y other.length.y +
            under m.position.y m.length.y other.position.y other.length.y⟩ m.resolution
        ⟨m.position.x + (over m.position.x m.length.x other.position.x other.length.x -
            under m.position.x m.length.x other.position.x other.length.x) / 2,
          m.position.y + (over m.position.y m.length.y other.position.y other.length.y -
            under m.position.y m.length.y other.position.y other.length.y) / 2⟩ m =
        (.ok (), { extEmpty m other with position :=
          ⟨m.position.x + (over m.position.x m.length.x other.position.x other.length.x -
            under m.position.x m.length.x other.position.x other.length.x) / 2,
          m.position.y + (over m.position.y m.length.y other.position.y other.length.y -
            under m.position.y m.length.y other.position.y other.length.y) / 2⟩ }) := by
      unfold setGeometry
      rw [if_neg (by simp only [not_not]; linarith), if_neg (by simp only [not_not]; linarith),
        if_neg (by simp only [not_not]; exact hr)]
      rfl
    rw [Act.bind_ok e1]
    rfl
  · rw [if_neg hcond, if_neg hcond]

/-- New and old grid coincide up to a whole number of cells. -/
theorem ext_offset {m : CostMap K} (h : m.Geo) (other : CostMap K) :
    ∃ w : Idx, ∀ p, (extEmpty m other).cellU p = m.cellU p + w := by
  have hr := h.res_pos
  have hg := extEmpty_geo h other
  have axis : ∀ (q c : K) (N n : Int), 0 ≤ N → 0 ≤ n → ∃ w : Int, ∀ t : K,
      ⌊(alignAxis m.resolution q c N n + (N : K) * m.resolution / 2 - t) / m.resolution⌋ =
        ⌊(c + (n : K) * m.resolution / 2 - t) / m.resolution⌋ + w := by
    intro q c N n hN hn
    obtain ⟨w, hw⟩ := halfShift_parity ((q - c) / m.resolution) hN hn
    refine ⟨wholeShift ((q - c) / m.resolution) + w, fun t => ?_⟩
    rw [alignAxis_eq hr, ← Int.floor_add_intCast]
    congr 1
    have hw' : (2 : K) * w = halfShift ((q - c) / m.resolution) N n + (N - n) := by exact_mod_cast hw
    push_cast
    field_simp
    linear_combination (-m.resolution) * hw'
  obtain ⟨wx, hwx⟩ := axis (m.position.x + (over m.position.x m.length.x other.position.x other.length.x -
      under m.position.x m.length.x other.position.x other.length.x) / 2) m.position.x (extSize m other).x m.size.x
      hg.size_x.le h.size_x.le
  obtain ⟨wy, hwy⟩ := axis (m.position.y + (over m.position.y m.length.y other.position.y other.length.y -
      under m.position.y m.length.y other.position.y other.length.y) / 2) m.position.y (extSize m other).y m.size.y
      hg.size_y.le h.size_y.le
  refine ⟨⟨wx, wy⟩, fun p => ?_⟩
  ext
  · simp only [cellU, Idx.add_x]
    rw [h.len_x]
    exact hwx p.x
  · simp only [cellU, Idx.add_y]
    rw [h.len_y]
    exact hwy p.y

/-! ## Copying the old data -/

theorem restoreLayer_eq {copy : CostMap K} (h : copy.Geo) (hc : copy.Coherent) {p : Vec K}
    (hp : copy.isInside p = true) (i : Idx) {l : String} (hl : copy.exists l = true) (s : CostMap K) :
    restoreLayer copy i (copy.getIndex p).1 l s =
      match (match copy.atPosition l p with | .ok c => some c | _ => none) with
      | none => (.ok (), s) | some c => setAt l i c s := by
  obtain ⟨c, e⟩ := hc.at_ok hl (getIndex_in h hp)
  unfold restoreLayer
  rw [atPosition_inside hp, e]
  simp [Act.bind, Act.lift]

theorem restoreCells_spec {m : CostMap K} (h : m.Geo) (hc : m.Coherent)
    (hb : ∀ l ∈ m.basicLayers, m.exists l = true) (other : CostMap K) :
    ∃ m', forCells (restoreCell m) (extEmpty m other) = (.ok (), m') ∧ SameShape (extEmpty m other) m' ∧
      ∀ l, m.exists l = true → ∀ i p, (extEmpty m other).getPosition i = some p →
        m'.at l i = if m.isInside p = true then m.atPosition l p else .ok NO_INFORMATION := by
  have hg := extEmpty_geo h other
  have hec := extEmpty_coherent h hc other
  rw [forCells_eq hg.start]
  let new : String → Idx → Res Cost := fun l i => match (extEmpty m other).getPosition i with
    | none => .ub
    | some p => if m.exists l = true ∧ m.isInside p = true then m.atPosition l p else (extEmpty m other).at l i
  obtain ⟨m', e, hs, -, hat⟩ := forEach_cells (new := new) (body := restoreCell m) (m₀ := extEmpty m other)
    (cells_nodup hg.start) (by
      intro i hi s hsh heq
      have hi := (mem_cells hg.start).mp hi
      have hp := getPosition_eq (m := extEmpty m other) hi
      generalize (extEmpty m other).center (unwrapIdx i (extEmpty m other).size (extEmpty m other).startIndex) = p at hp
      have hvs : s.isValid i = .ok false := by
        have hsb : s.basicLayers = m.basicLayers := hsh.info.basicLayers
        have hat : ∀ l ∈ s.basicLayers, s.at l i = .ok NO_INFORMATION := by
          intro l hl
          rw [hsb] at hl
          rw [heq, extEmpty_at other (hb l hl) hi]
        obtain ⟨b, hv, hv'⟩ := isValid_eq (m := s) (i := i) (fun l hl => ⟨_, hat l hl⟩)
        have : b = false := by
          rw [Bool.eq_false_iff, Ne, hv']
          rintro ⟨hne, hall⟩
          obtain ⟨l, hl⟩ := List.exists_mem_of_ne_nil _ hne
          obtain ⟨c, hc', hne'⟩ := hall l hl
          rw [hat l hl] at hc'
          cases hc'
          exact hne' rfl
        rw [hv, this]
      unfold restoreCell
      have e0 : (Act.read fun m : CostMap K => m.isValid i) s = (.ok false, s) := by simp [Act.read, hvs]
      rw [Act.bind_ok e0]
      simp only [Bool.false_eq_true, if_false]
      rw [show s.getPosition i = some p from (getPosition_congr hsh.geo i).trans hp]
      simp only
      by_cases hin : m.isInside p = true
      · simp only [hin, Bool.not_true, Bool.false_eq_true, if_false]
        have hlay : s.layers = m.layers := hsh.layers
        obtain ⟨s', e, h1, h2, h3⟩ := forEach_layers
          (w := fun l => match m.atPosition l p with | .ok c => some c | _ => none)
          (hsh.coherent hec) (i := i) (by rw [hsh.geo.size]; exact hi) (ls := s.layers)
          (fun l hl t => restoreLayer_eq h hc hin i ((hc.mem_iff l).mp (by rw [← hlay]; exact hl)) t)
          (fun l hl => ((hsh.coherent hec).mem_iff l).mp hl)
        refine ⟨s', e, h1, h2, fun l => ?_⟩
        rw [h3, hlay]
        simp only [new, hp, hin, and_true]
        by_cases hl : m.exists l = true
        · have hl' : l ∈ m.layers := (hc.mem_iff l).mpr hl
          obtain ⟨c, ec⟩ := hc.at_ok hl (getIndex_in h hin)
          rw [← atPosition_inside hin] at ec
          simp [hl, hl', ec]
        · have hl' : l ∉ m.layers := fun h' => hl ((hc.mem_iff l).mp h')
          rw [Bool.not_eq_true] at hl
          simp [hl, hl', heq]
      · rw [Bool.not_eq_true] at hin
        simp only [hin, Bool.not_false, if_true]
        refine ⟨s, rfl, SameShape.refl s, fun _ _ _ => rfl, fun l => ?_⟩
        simp only [new, hp, hin]
        simp [heq]) (SameShape.refl _) (fun _ _ _ => rfl)
  refine ⟨m', e, hs, ?_⟩
  intro l hl i p hp
  have hi : i.In (extEmpty m other).size := by
    by_contra h
    rw [getPosition_none h] at hp; cases hp
  rw [hat l i ((mem_cells hg.start).mpr hi)]
  simp only [new, hp, hl, true_and]
  rw [extEmpty_at other hl hi]

end CostMap
end CostMapModel

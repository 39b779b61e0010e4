import Verif.Model.RoundedConversions
import Verif.Lemmas.Bundle
import Verif.Lemmas.Rounded
import Verif.Spec.Rounded

/-! # Lemmas on conversions in floating point -/

set_option linter.unusedSectionVars false

namespace CostMapModel
variable {K : Type} [Field K] [LinearOrder K] [IsStrictOrderedRing K] [FloorRing K]

/-! ## Actions that do not look at a part of the state -/

/-- The action commutes with the change `g` of the state. -/
def Act.Natural {σ α : Type} (g : σ → σ) (a : Act σ α) : Prop := ∀ s, a (g s) = ((a s).1, g (a s).2)

namespace Act.Natural
variable {σ α β : Type} {g : σ → σ}

theorem pure (x : α) : Act.Natural g (Act.pure x) := fun _ => rfl

theorem lift (r : Res α) : Act.Natural g (Act.lift r) := fun _ => rfl

theorem modify {f : σ → σ} (h : ∀ s, f (g s) = g (f s)) : Act.Natural g (Act.modify f) := fun s => by
  show (Res.ok (), f (g s)) = (Res.ok (), g (f s))
  rw [h]

theorem bind {a : Act σ α} {f : α → Act σ β} (ha : Act.Natural g a) (hf : ∀ x, Act.Natural g (f x)) :
    Act.Natural g (Act.bind a f) := fun s => by
  unfold Act.bind
  rw [ha s]
  rcases e : a s with ⟨r, s'⟩
  cases r with
  | ok x => exact hf x s'
  | _ => rfl

theorem ite {c : Prop} [Decidable c] {a b : Act σ α} (ha : Act.Natural g a) (hb : Act.Natural g b) :
    Act.Natural g (if c then a else b) := by split <;> assumption

theorem forEach {f : α → Act σ Unit} (hf : ∀ x, Act.Natural g (f x)) : ∀ xs : List α, Act.Natural g (Act.forEach f xs)
  | [] => pure ()
  | x :: xs => by
    unfold Act.forEach
    exact bind (hf x) fun _ => forEach hf xs

theorem forIter {τ : Type} {I : IterOps τ α} {body : α → Act σ Unit} (hf : ∀ x, Act.Natural g (body x)) :
    ∀ (n : Nat) (it : τ), Act.Natural g (Act.forIter I body n it)
  | 0, _ => fun _ => rfl
  | n + 1, it => by
    unfold Act.forIter
    exact ite (pure ()) (bind (lift _) fun x => bind (hf x) fun _ => bind (lift _) fun it' => forIter hf n it')

end Act.Natural

namespace CostMap

/-- The map with another length. -/
def withLength (L : Vec K) (m : CostMap K) : CostMap K := { m with length := L }

theorem natural_add (L : Vec K) (l : String) (a : Mat Cost) : Act.Natural (withLength L) (add (K := K) l a) := fun m => by
  unfold add
  show (if m.size.x ≠ a.rows then _ else if m.size.y ≠ a.cols then _ else if m.exists l = true then _ else _) = _
  split
  · rfl
  · split
    · rfl
    · split <;> rfl

theorem natural_addFromArray (L : Vec K) (p : String × MultiArray) : Act.Natural (withLength L) (addFromArray (K := K) p) :=
  (Act.Natural.lift _).bind fun a => natural_add L p.1 a

theorem natural_setAt (L : Vec K) (l : String) (i : Idx) (v : Cost) : Act.Natural (withLength L) (setAt (K := K) l i v) := fun m => by
  unfold setAt
  show (match m.data l with
    | none => _
    | some a => _) = _
  rcases m.data l with _ | a
  · rfl
  · dsimp only
    split <;> rfl

theorem natural_loadLayer (L : Vec K) (cv : Cv) (files : Files K) (p : String × String) :
    Act.Natural (withLength L) (loadLayer cv files p) := by
  refine Act.Natural.bind ?_ fun _ => Act.Natural.pure ()
  unfold addLayerFromImage
  refine Act.Natural.ite (Act.Natural.pure _) (Act.Natural.bind ?_ fun _ => ?_)
  · intro m
    exact natural_add L _ _ m
  · intro m
    have hb : Act.Natural (withLength L) (Act.bind (forCells (imageCell cv (FileImage.toImage (files.images p.2)) p.1))
        fun _ => Act.pure (σ := CostMap K) true) := by
      refine Act.Natural.bind (fun m => ?_) fun _ => Act.Natural.pure true
      refine Act.Natural.forIter (fun i => ?_) _ _ m
      unfold imageCell
      refine (Act.Natural.lift _).bind fun s => ?_
      split
      · exact Act.Natural.pure ()
      · exact (Act.Natural.lift _).bind fun v => natural_setAt L _ _ v
    by_cases hc : m.size.x ≠ ((FileImage.toImage (files.images p.2)).height : Int) ∨
        m.size.y ≠ ((FileImage.toImage (files.images p.2)).width : Int)
    · have hc' : (withLength L m).size.x ≠ ((FileImage.toImage (files.images p.2)).height : Int) ∨
        (withLength L m).size.y ≠ ((FileImage.toImage (files.images p.2)).width : Int) := hc
      simp only [if_pos hc, if_pos hc']
    · have hc' : ¬((withLength L m).size.x ≠ ((FileImage.toImage (files.images p.2)).height : Int) ∨
        (withLength L m).size.y ≠ ((FileImage.toImage (files.images p.2)).width : Int)) := hc
      simp only [if_neg hc, if_neg hc']
      exact hb m

/-! ## The number of cells -/

theorem roundHalfAway_near {x : K} {n : Int} (hn : 0 < n) (h : |x - n| < 1 / 2) : roundHalfAway x = n := by
  obtain ⟨h1, h2⟩ := abs_lt.mp h
  have h0 : (1 : K) ≤ n := by exact_mod_cast hn
  unfold roundHalfAway
  rw [if_pos (by linarith), Int.floor_eq_iff]
  constructor <;> linarith

/-- The length of a map gives its number of cells back. -/
theorem cells_of_length {rd : K → K} (hrd : DoublePrecision rd) {r : K} (hr : 0 < r) {n : Int} (hn : 0 < n) (hn' : n < 2 ^ 50) :
    0 < rd ((n : K) * r) ∧ roundHalfAway (rd (rd ((n : K) * r) / r)) = n := by
  have h0 : (1 : K) ≤ n := by exact_mod_cast hn
  have h1 : (n : K) ≤ 2 ^ 50 := by exact_mod_cast hn'.le
  have hp : 0 < (n : K) * r := by positivity
  have e1 := hrd ((n : K) * r)
  rw [abs_of_pos hp, abs_le] at e1
  have q1 : |rd ((n : K) * r) / r - n| ≤ n / 2 ^ 53 := by
    rw [show rd ((n : K) * r) / r - n = (rd ((n : K) * r) - n * r) / r by field_simp, abs_div, abs_of_pos hr, div_le_iff₀ hr, abs_le]
    constructor
    · linarith [e1.1, show (n : K) * r / 2 ^ 53 = n / 2 ^ 53 * r by ring]
    · linarith [e1.2, show (n : K) * r / 2 ^ 53 = n / 2 ^ 53 * r by ring]
  have hs : (n : K) * r / 2 ^ 53 ≤ n * r / 2 := div_le_div_of_nonneg_left hp.le (by norm_num) (by norm_num)
  refine ⟨by linarith [e1.1], roundHalfAway_near hn ?_⟩
  have e2 := hrd (rd ((n : K) * r) / r)
  rw [abs_le] at q1
  have hs2 : (n : K) / 2 ^ 53 ≤ 1 / 8 := by
    rw [div_le_iff₀ (by norm_num)]; linarith [show (1 : K) / 8 * 2 ^ 53 = 2 ^ 50 by norm_num]
  rw [abs_of_nonneg (a := rd ((n : K) * r) / r) (by linarith [q1.1]), abs_le] at e2
  have hs3 : rd ((n : K) * r) / r / 2 ^ 53 ≤ 1 / 4 := by
    rw [div_le_iff₀ (by norm_num)]; linarith [q1.2, show (1 : K) / 4 * 2 ^ 53 = 2 ^ 51 by norm_num, show (2 : K) ^ 51 = 2 * 2 ^ 50 by norm_num]
  rw [abs_lt]
  constructor <;> linarith [q1.1, q1.2, e2.1, e2.2]

/-- The length that is computed from a number of cells in `float` gives the number of cells back. -/
theorem cells_of_float {rd rf : K → K} (hrd : DoublePrecision rd) (hrf : Close24 rf) {r : K} (hr : 0 < r) {n : Int} (hn : 0 < n)
    (hn' : n < 2 ^ 23) : 0 < rf (r * n) ∧ roundHalfAway (rd (rf (r * n) / r)) = n := by
  have h0 : (1 : K) ≤ n := by exact_mod_cast hn
  have h1 : (n : K) ≤ 2 ^ 23 - 1 := by
    have : n ≤ 2 ^ 23 - 1 := by omega
    exact_mod_cast this
  have hp : 0 < r * (n : K) := by positivity
  refine ⟨hrf.pos hp, roundHalfAway_near hn ?_⟩
  have e1 := hrf _ hp
  rw [abs_le] at e1
  have q1 : |rf (r * n) / r - n| ≤ n / 2 ^ 24 := by
    rw [show rf (r * n) / r - n = (rf (r * n) - r * n) / r by field_simp, abs_div, abs_of_pos hr, div_le_iff₀ hr, abs_le]
    constructor
    · linarith [e1.1, show r * (n : K) / 2 ^ 24 = n / 2 ^ 24 * r by ring]
    · linarith [e1.2, show r * (n : K) / 2 ^ 24 = n / 2 ^ 24 * r by ring]
  have e2 := hrd (rf (r * n) / r)
  rw [abs_le] at q1
  have hs2 : (n : K) / 2 ^ 24 ≤ 1 / 2 - 1 / 2 ^ 24 := by
    rw [div_le_iff₀ (by norm_num)]
    linarith [show ((1 : K) / 2 - 1 / 2 ^ 24) * 2 ^ 24 = 2 ^ 23 - 1 by norm_num]
  rw [abs_of_nonneg (a := rf (r * n) / r) (by linarith [q1.1]), abs_le] at e2
  have hs3 : rf (r * n) / r / 2 ^ 53 < 1 / 2 ^ 24 := by
    rw [div_lt_iff₀ (by norm_num)]
    linarith [q1.2, show (1 : K) / 2 ^ 24 * 2 ^ 53 = 2 ^ 29 by norm_num, show (2 : K) ^ 29 = 64 * 2 ^ 23 by norm_num]
  rw [abs_lt]
  constructor <;> linarith [q1.1, q1.2, e2.1, e2.2]

/-- `setGeometry` in floating point and in exact arithmetic, when both find the same number of cells. -/
theorem setGeometryRd_eq {rd : K → K} {len : Vec K} {r : K} (p : Vec K) {n : Idx} (hx : 0 < len.x) (hy : 0 < len.y) (hr : 0 < r)
    (nx : roundHalfAway (rd (len.x / r)) = n.x) (ny : roundHalfAway (rd (len.y / r)) = n.y) {len' : Vec K} (hx' : 0 < len'.x)
    (hy' : 0 < len'.y) (nx' : roundHalfAway (len'.x / r) = n.x) (ny' : roundHalfAway (len'.y / r) = n.y) (m : CostMap K) :
    setGeometryRd rd len r p m =
      ((setGeometry len' r p m).1, withLength ⟨rd ((n.x : K) * r), rd ((n.y : K) * r)⟩ (setGeometry len' r p m).2) := by
  rw [setGeometry_run p hx' hy' hr m]
  simp only [setGeometryRd, hx, hy, hr, not_true, if_false, nx, ny, nx', ny', withLength]

end CostMap
end CostMapModel

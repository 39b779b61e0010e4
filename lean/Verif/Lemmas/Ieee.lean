import Verif.Spec.Ieee
import Verif.Lemmas.Machine
import Verif.Lemmas.InflationUse

/-!
# Lemmas about infinities, NaN and overflow
-/

set_option linter.unusedSectionVars false

namespace CostMapModel
variable {K : Type} [Field K] [LinearOrder K] [IsStrictOrderedRing K] [FloorRing K] {F : Fmt K}

theorem Dbl.isNum_iff {a : Dbl K} : a.IsNum ↔ ∃ x, a = .fin x := by
  cases a <;> simp [Dbl.IsNum]

theorem Dbl.add_num {a b : Dbl K} (h : (Dbl.add F a b).IsNum) : a.IsNum ∧ b.IsNum := by
  cases a <;> cases b <;> simp_all [Dbl.add, Dbl.IsNum]

theorem Dbl.neg_num {a : Dbl K} (h : (Dbl.neg a).IsNum) : a.IsNum := by
  cases a <;> simp_all [Dbl.neg, Dbl.IsNum]

theorem Dbl.sub_num {a b : Dbl K} (h : (Dbl.sub F a b).IsNum) : a.IsNum ∧ b.IsNum :=
  ⟨(Dbl.add_num h).1, Dbl.neg_num (Dbl.add_num h).2⟩

theorem Dbl.infOf_not_num (x : K) : ¬ (Dbl.infOf x).IsNum := by
  unfold Dbl.infOf
  split
  · simp [Dbl.IsNum]
  · split <;> simp [Dbl.IsNum]

theorem Dbl.div_num {a b : Dbl K} (h : (Dbl.div F a b).IsNum) : a.IsNum := by
  rw [Dbl.isNum_iff] at h ⊢
  obtain ⟨x, h⟩ := h
  cases a
  case fin a => exact ⟨a, rfl⟩
  all_goals
    exfalso
    cases b <;> simp only [Dbl.div, reduceCtorEq] at h
    try (split at h <;> cases h)

theorem toOriginD_num {a : Dbl K} (h : (toOriginD F a).IsNum) : a.IsNum := by
  cases a
  case fin => trivial
  case nan => exact h.elim
  case pinf => exact (Dbl.infOf_not_num _ h).elim
  case ninf => exact (Dbl.infOf_not_num _ (Dbl.neg_num h)).elim

theorem Dbl.toInt_num {a : Dbl K} {i : Int} (h : a.toInt = some i) : a.IsNum := by
  cases a <;> simp_all [Dbl.toInt, Dbl.IsNum]

theorem cellD_num {p len pos res : Dbl K} {i : Int} (h : cellD F p len pos res = some i) :
    p.IsNum ∧ len.IsNum ∧ pos.IsNum := by
  unfold cellD at h
  obtain ⟨j, hj, -⟩ := Option.bind_eq_some_iff.mp h
  have h1 := Dbl.sub_num (Dbl.div_num (Dbl.toInt_num hj))
  have h2 := Dbl.sub_num h1.1
  exact ⟨h2.1, toOriginD_num h2.2, h1.2⟩

theorem fromBorderD_num {p len pos : Dbl K} (h1 : Dbl.le (.fin 0) (fromBorderD F p len pos) = true)
    (h2 : Dbl.lt (fromBorderD F p len pos) len = true) : p.IsNum ∧ len.IsNum ∧ pos.IsNum := by
  have : (fromBorderD F p len pos).IsNum := by
    generalize fromBorderD F p len pos = t at h1 h2
    cases t <;> cases len <;> simp_all [Dbl.le, Dbl.lt, Dbl.IsNum]
  have h3 := Dbl.sub_num (Dbl.neg_num this)
  have h4 := Dbl.sub_num h3.1
  exact ⟨h4.1, toOriginD_num h3.2, h4.2⟩

theorem indexShift1D_num {s res : Dbl K} {i : Int} (h : indexShift1D F s res = some i) : s.IsNum := by
  unfold indexShift1D at h
  obtain ⟨j, hj, -⟩ := Option.bind_eq_some_iff.mp h
  exact Dbl.div_num (Dbl.add_num (Dbl.toInt_num hj)).1

/-! ### Numbers -/

theorem Fmt.Double.top_pos (hF : F.Double) : 0 < F.top := lt_of_lt_of_le (by positivity) hF.top

theorem Fmt.Double.rd_near (hF : F.Double) (x : K) : |F.rd x - x| ≤ |x| / 16 := by
  refine (hF.rd x).trans ?_
  have := abs_nonneg x
  gcongr
  norm_num

theorem Fmt.Double.rd_le (hF : F.Double) (x : K) : |F.rd x| ≤ 17 / 16 * |x| := by
  have h1 := hF.rd_near x
  have h2 := abs_add_le (F.rd x - x) x
  rw [sub_add_cancel] at h2
  linarith

theorem Fmt.Double.rd_ge (hF : F.Double) (x : K) : 15 / 16 * |x| ≤ |F.rd x| := by
  have h1 := hF.rd_near x
  have h2 := abs_add_le (x - F.rd x) (F.rd x)
  rw [sub_add_cancel, abs_sub_comm] at h2
  linarith

theorem Dbl.round_cases (F : Fmt K) (x : K) : (F.top ≤ F.rd x ∧ Dbl.round F x = .pinf) ∨
    (F.rd x ≤ -F.top ∧ ¬ F.top ≤ F.rd x ∧ Dbl.round F x = .ninf) ∨ (|F.rd x| < F.top ∧ Dbl.round F x = .fin (F.rd x)) := by
  unfold Dbl.round
  by_cases h1 : F.top ≤ F.rd x
  · simp [h1]
  · by_cases h2 : F.rd x ≤ -F.top
    · simp [h1, h2]
    · refine Or.inr (Or.inr ⟨?_, by simp [h1, h2]⟩)
      push Not at h1 h2
      exact abs_lt.mpr ⟨h2, h1⟩

theorem Dbl.round_fin {x : K} (h : |F.rd x| < F.top) : Dbl.round F x = .fin (F.rd x) := by
  obtain ⟨h1, h2⟩ := abs_lt.mp h
  unfold Dbl.round
  rw [if_neg (not_le.mpr h2), if_neg (not_le.mpr h1)]

theorem Dbl.sub_fin (x y : K) : Dbl.sub F (.fin x) (.fin y) = Dbl.round F (x - y) := by
  rw [sub_eq_add_neg]; rfl

theorem toOriginD_fin (hF : F.Double) {len : K} (h : F.Holds len) : toOriginD F (.fin len) = .fin (toOriginRd F.rd len) := by
  have := hF.rd_le (1 / 2 * len)
  rw [abs_mul, abs_of_pos (by norm_num : (0 : K) < 1 / 2)] at this
  have h' : |len| < F.top := h
  have := abs_nonneg len
  exact Dbl.round_fin (by linarith)

/-- The inside test along one axis: an overflow does not change its answer. -/
theorem fromBorderD_same (hF : F.Double) {p len pos : K} (h : F.Holds len) :
    (Dbl.le (.fin 0) (fromBorderD F (.fin p) (.fin len) (.fin pos)) = true ∧
      Dbl.lt (fromBorderD F (.fin p) (.fin len) (.fin pos)) (.fin len) = true) ↔
    (0 ≤ fromBorderRd F.rd p len pos ∧ fromBorderRd F.rd p len pos < len) := by
  have h' : |len| < F.top := h
  obtain ⟨l1, l2⟩ := abs_lt.mp h'
  have ho : |toOriginRd F.rd len| ≤ 17 / 32 * |len| := by
    have := hF.rd_le (1 / 2 * len)
    rw [abs_mul, abs_of_pos (by norm_num : (0 : K) < 1 / 2)] at this
    unfold toOriginRd; linarith
  have ho' : 0 < len → 15 / 32 * len ≤ toOriginRd F.rd len := by
    intro h0
    have := hF.rd_near (1 / 2 * len)
    rw [abs_of_pos (by linarith : 0 < 1 / 2 * len), abs_le] at this
    unfold toOriginRd; linarith [this.1]
  have htop := hF.top_pos
  unfold fromBorderD fromBorderRd
  rw [toOriginD_fin hF h, Dbl.sub_fin]
  generalize toOriginRd F.rd len = o at ho ho'
  obtain ⟨o1, o2⟩ := abs_le.mp ho
  have hl0 := abs_nonneg len
  have hl1 := le_abs_self len
  have hll : len ≤ 0 ∨ 0 < len := le_or_gt _ _
  rcases Dbl.round_cases F (p - pos) with ⟨c, e⟩ | ⟨c, -, e⟩ | ⟨c, e⟩
  · rw [e]
    have hx : 0 < F.rd (p - pos) - o := by linarith
    have := hF.rd_near (F.rd (p - pos) - o)
    rw [abs_of_pos hx, abs_le] at this
    constructor
    · intro h; simp [Dbl.sub, Dbl.neg, Dbl.add, Dbl.le] at h
    · rintro ⟨h1, -⟩; exfalso; linarith [this.1]
  · rw [e]
    have hx : F.rd (p - pos) - o < 0 := by linarith
    have hr := hF.rd_near (F.rd (p - pos) - o)
    rw [abs_of_neg hx, abs_le] at hr
    constructor
    · intro h; simp [Dbl.sub, Dbl.neg, Dbl.add, Dbl.lt] at h
    · rintro ⟨-, h2⟩
      exfalso
      rcases hll with hl | hl
      · linarith [hr.2]
      · linarith [hr.2, ho' hl]
  · rw [e, Dbl.sub_fin]
    rcases Dbl.round_cases F (F.rd (p - pos) - o) with ⟨c', e'⟩ | ⟨c', -, e'⟩ | ⟨c', e'⟩
    · rw [e']
      constructor
      · intro h; simp [Dbl.neg, Dbl.le] at h
      · rintro ⟨h1, -⟩; exfalso; linarith
    · rw [e']
      constructor
      · intro h; simp [Dbl.neg, Dbl.lt] at h
      · rintro ⟨-, h2⟩; exfalso; linarith
    · rw [e']; simp [Dbl.neg, Dbl.le, Dbl.lt]

theorem i32_large {x : K} (h : 2 ^ 63 ≤ |x|) : I32.ofReal x = none := by
  unfold I32.ofReal truncToInt
  apply i32_none
  rcases le_abs.mp h with h | h
  · have h0 : (0 : K) ≤ x := le_trans (by positivity) h
    rw [if_pos h0]
    right
    have : (2 ^ 63 : Int) ≤ ⌊x⌋ := Int.le_floor.mpr (by exact_mod_cast h)
    omega
  · have h0 : ¬ (0 : K) ≤ x := by
      have : (0 : K) < -x := lt_of_lt_of_le (by positivity) h
      linarith
    rw [if_neg h0]
    left
    have : (2 ^ 63 : Int) ≤ ⌊-x⌋ := Int.le_floor.mpr (by exact_mod_cast h)
    omega

theorem round_large {x : K} (h : 2 ^ 63 ≤ |x|) : i32 (roundHalfAway x) = none := by
  unfold roundHalfAway
  apply i32_none
  rcases le_abs.mp h with h | h
  · have h0 : (0 : K) ≤ x := le_trans (by positivity) h
    rw [if_pos h0]
    right
    have : (2 ^ 63 : Int) ≤ ⌊x + 1 / 2⌋ := Int.le_floor.mpr (by push_cast; linarith)
    omega
  · have h0 : ¬ (0 : K) ≤ x := by
      have : (0 : K) < -x := lt_of_lt_of_le (by positivity) h
      linarith
    rw [if_neg h0]
    left
    have : (2 ^ 63 : Int) ≤ ⌊-x + 1 / 2⌋ := Int.le_floor.mpr (by push_cast; linarith)
    omega

theorem Fmt.Double.top_large (hF : F.Double) {x : K} (h : F.top ≤ |x|) : (2 : K) ^ 63 ≤ |x| :=
  le_trans (le_trans (by norm_num) hF.top) h

theorem toInt_round (hF : F.Double) (x : K) : (Dbl.round F x).toInt = I32.ofReal (F.rd x) := by
  rcases Dbl.round_cases F x with ⟨c, e⟩ | ⟨c, -, e⟩ | ⟨c, e⟩
  · rw [e, i32_large (hF.top_large (le_abs.mpr (Or.inl c)))]; rfl
  · rw [e, i32_large (hF.top_large (le_abs.mpr (Or.inr (by linarith))))]; rfl
  · rw [e]; rfl

theorem roundToInt_round (hF : F.Double) (x : K) : (Dbl.round F x).roundToInt = i32 (roundHalfAway (F.rd x)) := by
  rcases Dbl.round_cases F x with ⟨c, e⟩ | ⟨c, -, e⟩ | ⟨c, e⟩
  · rw [e, round_large (hF.top_large (le_abs.mpr (Or.inl c)))]; rfl
  · rw [e, round_large (hF.top_large (le_abs.mpr (Or.inr (by linarith))))]; rfl
  · rw [e]; rfl

theorem Fmt.Double.holds (hF : F.Double) {x : K} (h : F.Moderate x) : F.Holds x := by
  have h' : |x| ≤ F.top / 8 := h
  have := hF.top_pos
  show |x| < F.top
  linarith

theorem Dbl.div_fin {x y : K} (h : y ≠ 0) : Dbl.div F (.fin x) (.fin y) = Dbl.round F (x / y) := if_neg h

/-- The index along one axis: an overflow does not change it, for moderate coordinates. -/
theorem cellD_same (hF : F.Double) {p len pos res : K} (hp : F.Moderate p) (hl : F.Moderate len) (hpos : F.Moderate pos)
    (hr : res ≠ 0) : cellD F (.fin p) (.fin len) (.fin pos) (.fin res) = cellI F.rd p len pos res := by
  have hp' : |p| ≤ F.top / 8 := hp
  have hl' : |len| ≤ F.top / 8 := hl
  have hpos' : |pos| ≤ F.top / 8 := hpos
  have ht := hF.top_pos
  have ho : |toOriginRd F.rd len| ≤ 17 / 32 * |len| := by
    have := hF.rd_le (1 / 2 * len)
    rw [abs_mul, abs_of_pos (by norm_num : (0 : K) < 1 / 2)] at this
    unfold toOriginRd; linarith
  unfold cellD cellI
  rw [toOriginD_fin hF (hF.holds hl), Dbl.sub_fin]
  generalize toOriginRd F.rd len = o at ho
  have h1 := hF.rd_le (p - o)
  have h1' := abs_sub p o
  rw [Dbl.round_fin (by linarith), Dbl.sub_fin]
  have h2 := hF.rd_le (F.rd (p - o) - pos)
  have h2' := abs_sub (F.rd (p - o)) pos
  rw [Dbl.round_fin (by linarith), Dbl.div_fin hr, toInt_round hF]

/-- The shift along one axis: an overflow does not change it. -/
theorem indexShift1D_same (hF : F.Double) {s res : K} (hr : res ≠ 0) :
    indexShift1D F (.fin s) (.fin res) = indexShift1I F.rd s res := by
  unfold indexShift1D indexShift1I
  simp only []
  rw [Dbl.div_fin hr]
  rcases Dbl.round_cases F (s / res) with ⟨c, e⟩ | ⟨c, -, e⟩ | ⟨c, e⟩
  · rw [e, i32_large]
    · rfl
    · have h0 := hF.top
      rw [if_pos (lt_of_lt_of_le hF.top_pos c)]
      refine le_trans ?_ (hF.rd_ge _)
      rw [abs_of_nonneg (by linarith [hF.top_pos])]
      norm_num at h0 ⊢; linarith
  · rw [e, i32_large]
    · rfl
    · have h0 := hF.top
      have h1 := hF.top_pos
      rw [if_neg (by linarith)]
      refine le_trans ?_ (hF.rd_ge _)
      rw [abs_of_nonpos (by linarith)]
      norm_num at h0 ⊢; linarith
  · rw [e]
    show Option.bind (Dbl.toInt (Dbl.round F _)) _ = _
    rw [toInt_round hF]
    by_cases h0 : 0 < F.rd (s / res) <;> simp [Dbl.lt, h0]

theorem truncToInt_le (x : K) : |((truncToInt x : Int) : K)| ≤ |x| := by
  unfold truncToInt
  by_cases h : 0 ≤ x
  · rw [if_pos h, abs_of_nonneg h, abs_of_nonneg (by exact_mod_cast Int.floor_nonneg.mpr h)]
    exact Int.floor_le x
  · rw [if_neg h]
    push Not at h
    rw [abs_of_neg h, Int.cast_neg, abs_neg, abs_of_nonneg (by exact_mod_cast Int.floor_nonneg.mpr (by linarith))]
    exact Int.floor_le _

theorem I32.ofReal_eq {x : K} {i : Int} (h : I32.ofReal x = some i) : i = truncToInt x := by
  unfold I32.ofReal i32 at h
  split at h
  · exact (Option.some.inj h).symm
  · cases h

theorem i32_some {z i : Int} (h : i32 z = some i) : i = z := by
  unfold i32 at h
  split at h
  · exact (Option.some.inj h).symm
  · cases h

/-- The aligned shift is about as long as the shift that was asked for. -/
theorem indexShift1I_le (hF : F.Double) {s res : K} (hr : 0 < res) {i : Int} (h : indexShift1I F.rd s res = some i) :
    |((-i : Int) : K) * res| ≤ 17 / 16 * (17 / 16 * |s| + 1 / 2 * res) := by
  unfold indexShift1I at h
  obtain ⟨j, hj, hi⟩ := Option.bind_eq_some_iff.mp h
  have hj := I32.ofReal_eq hj
  have hi : i = -j := i32_some hi
  subst hi
  rw [neg_neg, abs_mul, abs_of_pos hr]
  have h1 := truncToInt_le (F.rd (F.rd (s / res) + 1 / 2 * (if 0 < F.rd (s / res) then 1 else -1)))
  rw [← hj] at h1
  have h2 := hF.rd_le (F.rd (s / res) + 1 / 2 * (if 0 < F.rd (s / res) then 1 else -1))
  have h3 := abs_add_le (F.rd (s / res)) (1 / 2 * (if 0 < F.rd (s / res) then 1 else -1))
  have h4 : |(1 / 2 * (if 0 < F.rd (s / res) then 1 else -1) : K)| = 1 / 2 := by
    split <;> norm_num [abs_mul]
  rw [h4] at h3
  have h5 := hF.rd_le (s / res)
  have h6 : |s / res| * res = |s| := by rw [abs_div, abs_of_pos hr]; field_simp
  have h7 : |(j : K)| ≤ 17 / 16 * (17 / 16 * |s / res| + 1 / 2) := by linarith
  calc |(j : K)| * res ≤ 17 / 16 * (17 / 16 * |s / res| + 1 / 2) * res := mul_le_mul_of_nonneg_right h7 hr.le
    _ = 17 / 16 * (17 / 16 * (|s / res| * res) + 1 / 2 * res) := by ring
    _ = _ := by rw [h6]

/-! ### The functions that do not touch coordinates -/

/-- `g` does to the map with `double`s what `f` does to the map with numbers; they do not move the map. -/
def SameAct {α : Type} (f : Act (CostMap K) α) (g : Act (CostMap (Dbl K)) α) : Prop :=
  ∀ m : CostMap K, g m.toDbl = ((f m).1, (f m).2.toDbl) ∧ (f m).2.position = m.position

theorem SameAct.bind {α β : Type} {f : Act (CostMap K) α} {g : Act (CostMap (Dbl K)) α} (h : SameAct f g)
    {f' : α → Act (CostMap K) β} {g' : α → Act (CostMap (Dbl K)) β} (h' : ∀ a, SameAct (f' a) (g' a)) :
    SameAct (Act.bind f f') (Act.bind g g') := by
  intro m
  unfold Act.bind
  obtain ⟨e, e'⟩ := h m
  rw [e]
  rcases hf : f m with ⟨r, m'⟩
  rw [hf] at e'
  cases r
  case ok a => exact ⟨(h' a m').1, (h' a m').2.trans e'⟩
  all_goals exact ⟨rfl, e'⟩

theorem SameAct.pure {α : Type} (a : α) : SameAct (K := K) (Act.pure a) (Act.pure a) := fun _ => ⟨rfl, rfl⟩

theorem SameAct.ofOption {α : Type} (o : Option α) : SameAct (K := K) (Act.ofOption o) (Act.ofOption o) := fun _ => ⟨rfl, rfl⟩

theorem SameAct.clearBlock (i j r c : Int) (l : String) :
    SameAct (K := K) (CostMap.clearBlock i j r c l) (CostMap.clearBlock i j r c l) := by
  intro m
  unfold CostMap.clearBlock
  show (match m.data l with
    | none => _
    | some a => _) = _ ∧ _
  cases m.data l with
  | none => exact ⟨rfl, rfl⟩
  | some a =>
    simp only []
    cases CostMap.setBlockConstant a i j r c NO_INFORMATION <;> exact ⟨rfl, rfl⟩

theorem SameAct.forEach {β : Type} {f : β → Act (CostMap K) Unit} {g : β → Act (CostMap (Dbl K)) Unit}
    (h : ∀ b, SameAct (f b) (g b)) : ∀ bs, SameAct (Act.forEach f bs) (Act.forEach g bs)
  | [] => SameAct.pure ()
  | b :: bs => (h b).bind fun _ => SameAct.forEach h bs

theorem SameAct.clearStrip (i : Fin 2) (index n : Int) :
    SameAct (K := K) (CostMap.clearStrip i index n) (CostMap.clearStrip i index n) := by
  intro m
  unfold CostMap.clearStrip
  split
  · exact SameAct.forEach (fun l => SameAct.clearBlock _ _ _ _ l) m.layersToClear m
  · exact SameAct.forEach (fun l => SameAct.clearBlock _ _ _ _ l) m.layersToClear m

theorem SameAct.dropAxisI (shift : Idx) (i : Fin 2) :
    SameAct (K := K) (CostMap.dropAxisI shift i) (CostMap.dropAxisI shift i) := by
  intro m
  unfold CostMap.dropAxisI
  show (if CostMap.comp shift i ≠ 0 then _ else _) = _ ∧ _
  by_cases h0 : CostMap.comp shift i ≠ 0
  · simp only []
    rw [if_pos h0, if_pos h0]
    refine SameAct.bind (SameAct.ofOption _) (fun n => ?_) m
    show SameAct _ (if n ≥ CostMap.comp m.size i then _ else _)
    by_cases h1 : n ≥ CostMap.comp m.size i
    · rw [if_pos h1, if_pos h1]; intro m; exact ⟨rfl, rfl⟩
    · rw [if_neg h1, if_neg h1]
      refine SameAct.bind (SameAct.ofOption _) (fun a => ?_)
      refine SameAct.bind (SameAct.ofOption _) (fun b => ?_)
      refine SameAct.bind (SameAct.ofOption _) (fun c => ?_)
      refine SameAct.bind (SameAct.ofOption _) (fun d => ?_)
      refine SameAct.bind (SameAct.ofOption _) (fun e => ?_)
      refine SameAct.bind (SameAct.ofOption _) (fun f => ?_)
      show SameAct _ (if f ≤ CostMap.comp m.size i then _ else _)
      by_cases h2 : f ≤ CostMap.comp m.size i
      · rw [if_pos h2, if_pos h2]
        exact SameAct.bind (SameAct.clearStrip _ _ _) fun _ => SameAct.pure _
      · rw [if_neg h2, if_neg h2]
        refine SameAct.bind (SameAct.ofOption _) (fun g => ?_)
        refine SameAct.bind (SameAct.clearStrip _ _ _) fun _ => ?_
        refine SameAct.bind (SameAct.ofOption _) (fun g => ?_)
        exact SameAct.bind (SameAct.clearStrip _ _ _) fun _ => SameAct.pure _
  · simp only []
    rw [if_neg h0, if_neg h0]
    exact ⟨rfl, rfl⟩

theorem forEach_addFromArray_position : ∀ (ps : List (String × MultiArray)) {m m' : CostMap (Dbl K)} {u : Unit},
    Act.forEach CostMap.addFromArray ps m = (.ok u, m') → m'.position = m.position
  | [], m, m', u, h => by rw [← (Prod.mk.inj h).2]
  | p :: ps, m, m', u, h => by
    unfold Act.forEach at h
    obtain ⟨_, m1, h1, h⟩ := Act.bind_eq_ok h
    rw [forEach_addFromArray_position ps h]
    unfold CostMap.addFromArray at h1
    obtain ⟨a, m2, h2, h3⟩ := Act.bind_eq_ok h1
    have e2 : m2 = m := by
      unfold Act.lift at h2; exact ((Prod.mk.inj h2).2).symm
    rw [e2] at h3
    unfold CostMap.add at h3
    split at h3
    · cases h3
    · split at h3
      · cases h3
      · split at h3
        · rw [← (Prod.mk.inj h3).2]; rfl
        · rw [← (Prod.mk.inj h3).2]; rfl

end CostMapModel

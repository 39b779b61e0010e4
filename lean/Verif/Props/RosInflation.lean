import Verif.Model.RosInflation
import Verif.Props.Deflate
import Verif.Props.MachineInflation
import Verif.Props.AnyBundle

/-!
# The ROS inflation cost for any parameter, and inflation with cost functions that throw: C99, C100
-/

set_option linter.unusedSectionVars false

namespace CostMapModel
open CostMap Inflation

section
variable {K : Type} [Field K] [LinearOrder K] [IsStrictOrderedRing K] [FloorRing K]

/-- What is assumed of the formats and of `std::exp`: the roundings are monotone and keep zero, 252 is a `double`. -/
structure CostFormats (F Ff : Fmt K) (ex : K → K) : Prop where
  double : RoundOk F.rd
  float : RoundOk Ff.rd
  n252 : F.rd 252 = 252
  top : 256 ≤ F.top
  topf : 0 < Ff.top
  exp : ExpOk ex

variable {F Ff : Fmt K} {ex : K → K}

theorem round_nonneg {G : Fmt K} (hG : RoundOk G.rd) (ht : 0 < G.top) {x : K} (hx : 0 ≤ x) :
    (∃ s, Dbl.round G x = .fin s ∧ 0 ≤ s) ∨ Dbl.round G x = .pinf := by
  have h0 : 0 ≤ G.rd x := by rw [← hG.zero]; exact hG.mono hx
  unfold Dbl.round
  split
  · exact .inr rfl
  · rw [if_neg (by linarith)]
    exact .inl ⟨_, rfl, h0⟩

theorem round_nonpos {G : Fmt K} (hG : RoundOk G.rd) (ht : 0 < G.top) {x : K} (hx : x ≤ 0) :
    (∃ s, Dbl.round G x = .fin s ∧ s ≤ 0) ∨ Dbl.round G x = .ninf := by
  have h0 : G.rd x ≤ 0 := by rw [← hG.zero]; exact hG.mono hx
  unfold Dbl.round
  rw [if_neg (by linarith)]
  split
  · exact .inr rfl
  · exact .inl ⟨_, rfl, h0⟩

theorem round_mono {G : Fmt K} (hG : RoundOk G.rd) {x y : K} (h : x ≤ y) :
    Dbl.le (Dbl.round G x) (Dbl.round G y) = true := by
  have h0 := hG.mono h
  unfold Dbl.round
  split <;> split <;> (try split) <;> (try split) <;> first | rfl | (simp [Dbl.le]; linarith)

/-- The difference of distance and inscribed radius. -/
theorem sub_beyond (h : CostFormats F Ff ex) {r d : Dbl K} (hd : Dbl.lt r d = true) :
    (∃ s, Dbl.sub Ff d r = .fin s ∧ 0 ≤ s) ∨ Dbl.sub Ff d r = .pinf := by
  cases r <;> cases d <;> first | exact .inr rfl | (cases hd) | skip
  rename_i r d
  have : r < d := by simpa [Dbl.lt] using hd
  exact round_nonneg h.float h.topf (by linarith)

/-- The exponent for a weight that is not negative. -/
theorem exponent (h : CostFormats F Ff ex) {w S : Dbl K} (hw : Dbl.le (.fin 0) w = true) (hS : (∃ s, S = .fin s ∧ 0 ≤ s) ∨ S = .pinf) :
    ((∃ x, Dbl.mul F (.neg w) S = .fin x ∧ x ≤ 0) ∨ Dbl.mul F (.neg w) S = .ninf) ∧
      ¬ ((w = .fin 0 ∧ S = .pinf) ∨ (w = .pinf ∧ S = .fin 0)) ∨
    Dbl.mul F (.neg w) S = .nan ∧ ((w = .fin 0 ∧ S = .pinf) ∨ (w = .pinf ∧ S = .fin 0)) := by
  have ht : 0 < F.top := lt_of_lt_of_le (by norm_num) h.top
  rcases hS with ⟨s, rfl, hs⟩ | rfl
  · cases w with
    | nan => cases hw
    | ninf => cases hw
    | fin w =>
      have hw : 0 ≤ w := by simpa [Dbl.le] using hw
      exact .inl ⟨round_nonpos h.double ht (mul_nonpos_of_nonpos_of_nonneg (by linarith) hs), by simp⟩
    | pinf =>
      rcases hs.eq_or_lt with rfl | hs
      · exact .inr ⟨by simp [Dbl.neg, Dbl.mul, Dbl.infOf], by simp⟩
      · exact .inl ⟨.inr (by simp [Dbl.neg, Dbl.mul, Dbl.infOf, hs, hs.ne']), by simp [hs.ne']⟩
  · cases w with
    | nan => cases hw
    | ninf => cases hw
    | fin w =>
      have hw : 0 ≤ w := by simpa [Dbl.le] using hw
      rcases hw.eq_or_lt with rfl | hw
      · exact .inr ⟨by simp [Dbl.neg, Dbl.mul, Dbl.infOf], by simp⟩
      · exact .inl ⟨.inr (by simp [Dbl.neg, Dbl.mul, Dbl.infOf, hw.ne', not_lt.2 hw.le]), by simp [hw.ne']⟩
    | pinf => exact .inl ⟨.inr rfl, by simp⟩

/-- The value an exponent that is not positive leads to. -/
theorem exp_value (h : CostFormats F Ff ex) {x : K} (hx : x ≤ 0) :
    Dbl.mul F (.fin 252) (Dbl.exp F ex (.fin x)) = .fin (F.rd (252 * ex x)) ∧ 0 ≤ F.rd (252 * ex x) ∧ F.rd (252 * ex x) ≤ 252 := by
  have h1 : ex x ≤ 1 := by rw [← h.exp.zero]; exact h.exp.mono hx
  have h2 := h.exp.nonneg x
  have h3 : 0 ≤ F.rd (252 * ex x) := by
    rw [← h.double.zero]; exact h.double.mono (by positivity)
  have h4 : F.rd (252 * ex x) ≤ 252 := by
    rw [← h.n252]; exact h.double.mono (by rw [h.n252]; linarith)
  have ht := h.top
  refine ⟨?_, h3, h4⟩
  unfold Dbl.exp
  dsimp only
  rw [if_neg (by linarith)]
  show Dbl.round F (252 * ex x) = _
  rw [Dbl.round, if_neg (by linarith), if_neg (by linarith)]

theorem exp_ninf (h : CostFormats F Ff ex) : Dbl.mul F (.fin 252) (Dbl.exp F ex .ninf) = .fin 0 := by
  have ht := h.top
  show Dbl.round F (252 * 0) = _
  rw [mul_zero, Dbl.round, h.double.zero, if_neg (by linarith), if_neg (by linarith)]

/-- Beyond the inscribed radius. -/
theorem rosCostD_beyond {r w d : Dbl K} (h0 : d ≠ .fin 0) (hd : Dbl.le d r = false) :
    rosCostD F Ff ex r w d = match Dbl.mul F (.fin 252) (Dbl.exp F ex (.mul F (.neg w) (.sub Ff d r))) with
      | .fin x => if -1 < x ∧ x < 256 then .ok (UInt8.ofNat ⌊x⌋.toNat) else .ub
      | _ => .ub := by
  have hz : ∀ x, d = .fin x → x ≠ 0 := fun x e hx => h0 (by rw [e, hx])
  unfold rosCostD
  rw [hd]
  cases d with
  | fin d => simp only [hz d rfl, decide_false, Bool.false_eq_true, if_false]; rfl
  | pinf => rfl
  | ninf => rfl
  | nan => rfl

theorem lt_not_le {r d : Dbl K} (h : Dbl.lt r d = true) : Dbl.le d r = false := by
  cases r <;> cases d <;> simp_all [Dbl.lt, Dbl.le]

theorem lt_ne_zero {d : Dbl K} (h0 : Dbl.le (.fin 0) d = true) (hr : d ≠ .fin 0) : Dbl.lt (.fin 0) d = true := by
  cases d with
  | fin d =>
    have : 0 ≤ d := by simpa [Dbl.le] using h0
    have : 0 < d := lt_of_le_of_ne this fun e => hr (by rw [← e])
    simpa [Dbl.lt] using this
  | pinf => rfl
  | ninf => cases h0
  | nan => cases h0

/-- Beyond the inscribed radius, with a weight that is not negative: the value that is converted. -/
theorem rosCostD_value (h : CostFormats F Ff ex) {r w d : Dbl K} (hw : Dbl.le (.fin 0) w = true) (h0 : d ≠ .fin 0)
    (hd : Dbl.lt r d = true) :
    (rosCostD F Ff ex r w d = .ub ∧ ((w = .fin 0 ∧ Dbl.sub Ff d r = .pinf) ∨ (w = .pinf ∧ Dbl.sub Ff d r = .fin 0))) ∨
    (¬ ((w = .fin 0 ∧ Dbl.sub Ff d r = .pinf) ∨ (w = .pinf ∧ Dbl.sub Ff d r = .fin 0)) ∧
      ∃ y : K, 0 ≤ y ∧ y ≤ 252 ∧ rosCostD F Ff ex r w d = .ok (UInt8.ofNat ⌊y⌋.toNat) ∧
        ((∃ x, Dbl.mul F (.neg w) (.sub Ff d r) = .fin x ∧ x ≤ 0 ∧ y = F.rd (252 * ex x)) ∨
          (Dbl.mul F (.neg w) (.sub Ff d r) = .ninf ∧ y = 0))) := by
  rw [rosCostD_beyond h0 (lt_not_le hd)]
  rcases exponent h hw (sub_beyond h hd) with ⟨⟨x, e, hx⟩ | e, hn⟩ | ⟨e, hb⟩
  · obtain ⟨v, v1, v2⟩ := exp_value h hx
    refine .inr ⟨hn, _, v1, v2, ?_, .inl ⟨x, e, hx, rfl⟩⟩
    rw [e, v]
    dsimp only
    rw [if_pos ⟨by linarith, by linarith⟩]
  · refine .inr ⟨hn, 0, le_rfl, by norm_num, ?_, .inr ⟨e, rfl⟩⟩
    rw [e, exp_ninf h]
    dsimp only
    rw [if_pos ⟨by norm_num, by norm_num⟩]
  · refine .inl ⟨?_, hb⟩
    rw [e]
    rfl

/-- C99. The ROS inflation cost for every inscribed radius, every weight that is not negative, and every distance that is not
negative, infinities included: lethal at distance 0, inscribed up to the inscribed radius, and at most 252 beyond. The two cases of
undefined behaviour are named: an infinite difference with weight 0, and a difference of 0 (after rounding) with an infinite weight. -/
theorem C99_cost (h : CostFormats F Ff ex) {r w d : Dbl K} (hw : Dbl.le (.fin 0) w = true)
    (hd : Dbl.le (.fin 0) d = true) :
    (d = .fin 0 → rosCostD F Ff ex r w d = .ok LETHAL_OBSTACLE) ∧
    (d ≠ .fin 0 → Dbl.le d r = true → rosCostD F Ff ex r w d = .ok INSCRIBED_OBSTACLE) ∧
    (d ≠ .fin 0 → Dbl.lt r d = true →
      (rosCostD F Ff ex r w d = .ub ↔ (w = .fin 0 ∧ Dbl.sub Ff d r = .pinf) ∨ (w = .pinf ∧ Dbl.sub Ff d r = .fin 0)) ∧
      (rosCostD F Ff ex r w d ≠ .ub → ∃ c : Cost, rosCostD F Ff ex r w d = .ok c ∧ c.toNat ≤ 252)) := by
  refine ⟨?_, ?_, ?_⟩
  · rintro rfl
    simp [rosCostD]
  · intro h0 hle
    have hz : ∀ x, d = .fin x → x ≠ 0 := fun x e hx => h0 (by rw [e, hx])
    unfold rosCostD
    rw [hle]
    cases d with
    | fin d => simp only [hz d rfl, decide_false, Bool.false_eq_true, if_false, if_true]
    | pinf => rfl
    | ninf => rfl
    | nan => rfl
  · intro h0 hlt
    rcases rosCostD_value h hw h0 hlt with ⟨e, hb⟩ | ⟨hn, y, y0, y1, e, -⟩
    · exact ⟨⟨fun _ => hb, fun _ => e⟩, fun hn => absurd e hn⟩
    · refine ⟨⟨fun hu => (by rw [e] at hu; cases hu), fun hb => absurd hb hn⟩, fun _ => ⟨_, e, ?_⟩⟩
      have := floor_toNat_le y1
      rw [UInt8.toNat_ofNat']
      omega

theorem sub_mono (h : CostFormats F Ff ex) {r d d' : Dbl K} (hd : Dbl.lt r d = true) (hdd : Dbl.le d d' = true) :
    Dbl.le (Dbl.sub Ff d r) (Dbl.sub Ff d' r) = true := by
  cases r <;> cases d <;> cases d' <;> first | (cases hd; done) | (cases hdd; done) | rfl | skip
  · rename_i r d d'
    have : d ≤ d' := by simpa [Dbl.le] using hdd
    exact round_mono h.float (by linarith)
  · rename_i r d
    rcases sub_beyond h hd with ⟨s, e, -⟩ | e <;> rw [e] <;> rfl

theorem exponent_anti (h : CostFormats F Ff ex) {w S S' : Dbl K} (hw : Dbl.le (.fin 0) w = true)
    (hS : (∃ s, S = .fin s ∧ 0 ≤ s) ∨ S = .pinf) (hS' : (∃ s, S' = .fin s ∧ 0 ≤ s) ∨ S' = .pinf) (hle : Dbl.le S S' = true)
    (h1 : Dbl.mul F (.neg w) S ≠ .nan) (h2 : Dbl.mul F (.neg w) S' ≠ .nan) :
    Dbl.le (Dbl.mul F (.neg w) S') (Dbl.mul F (.neg w) S) = true := by
  rcases hS' with ⟨s', rfl, hs'⟩ | rfl
  · rcases hS with ⟨s, rfl, hs⟩ | rfl
    · have hss : s ≤ s' := by simpa [Dbl.le] using hle
      cases w with
      | nan => cases hw
      | ninf => cases hw
      | fin w =>
        have hw : 0 ≤ w := by simpa [Dbl.le] using hw
        exact round_mono h.double (by nlinarith)
      | pinf =>
        have e : ∀ t : K, 0 ≤ t → Dbl.mul F (.neg .pinf) (.fin t) ≠ .nan → Dbl.mul F (.neg .pinf) (.fin t) = .ninf := by
          intro t ht hn
          rcases ht.eq_or_lt with rfl | ht
          · exact absurd (by simp [Dbl.neg, Dbl.mul, Dbl.infOf]) hn
          · simp [Dbl.neg, Dbl.mul, Dbl.infOf, ht, ht.ne']
        rw [e s hs h1, e s' hs' h2]
        rfl
    · cases hle
  · rcases exponent h hw (.inr rfl : (∃ s, (Dbl.pinf : Dbl K) = .fin s ∧ 0 ≤ s) ∨ (Dbl.pinf : Dbl K) = .pinf) with ⟨-, hn⟩ | ⟨e, -⟩
    · have e : Dbl.mul F (.neg w) .pinf = .ninf := by
        cases w with
        | nan => cases hw
        | ninf => cases hw
        | fin w =>
          have hw : 0 ≤ w := by simpa [Dbl.le] using hw
          have hw0 : w ≠ 0 := fun e => hn (.inl ⟨by rw [e], rfl⟩)
          simp [Dbl.neg, Dbl.mul, Dbl.infOf, hw0, not_lt.2 hw]
        | pinf => rfl
      rw [e]
      rcases exponent h hw hS with ⟨⟨x, e, -⟩ | e, -⟩ | ⟨e, -⟩
      · rw [e]; rfl
      · rw [e]; rfl
      · exact absurd e h1
    · exact absurd e h2

theorem lt_of_not_le {r d : Dbl K} (hr : r ≠ .nan) (hd : d ≠ .nan) (h : Dbl.le d r = false) : Dbl.lt r d = true := by
  cases r <;> cases d <;> simp_all [Dbl.lt, Dbl.le]

/-- C99. The cost does not increase with the distance. -/
theorem C99_decreasing (h : CostFormats F Ff ex) {r w d d' : Dbl K} (hr : r ≠ .nan) (hw : Dbl.le (.fin 0) w = true)
    (hd : Dbl.le (.fin 0) d = true) (hdd : Dbl.le d d' = true) {c c' : Cost} (hc : rosCostD F Ff ex r w d = .ok c)
    (hc' : rosCostD F Ff ex r w d' = .ok c') : c' ≤ c := by
  have hd' : Dbl.le (.fin 0) d' = true := by
    cases d <;> cases d' <;> first | (cases hd; done) | (cases hdd; done) | rfl | skip
    simp only [Dbl.le, decide_eq_true_eq] at *
    linarith
  have hdn : d ≠ .nan := by rintro rfl; cases hd
  have hdn' : d' ≠ .nan := by rintro rfl; cases hd'
  obtain ⟨a1, a2, a3⟩ := C99_cost h hw hd
  obtain ⟨b1, b2, b3⟩ := C99_cost h hw hd'
  have small : ∀ {e : Cost}, d' ≠ .fin 0 → Dbl.lt r d' = true → rosCostD F Ff ex r w d' = .ok e → e.toNat ≤ 252 := by
    intro e h0 hlt he
    obtain ⟨c, e1, e2⟩ := (b3 h0 hlt).2 (by rw [he]; simp)
    rw [he] at e1
    cases e1
    exact e2
  rw [UInt8.le_iff_toNat_le]
  have L : LETHAL_OBSTACLE.toNat = 254 := rfl
  have I : INSCRIBED_OBSTACLE.toNat = 253 := rfl
  by_cases z : d = .fin 0
  · rw [a1 z] at hc
    cases hc
    by_cases z' : d' = .fin 0
    · rw [b1 z'] at hc'; cases hc'; exact le_rfl
    · cases hle : Dbl.le d' r with
      | true => rw [b2 z' hle] at hc'; cases hc'; omega
      | false => have := small z' (lt_of_not_le hr hdn' hle) hc'; omega
  · have z' : d' ≠ .fin 0 := by
      rintro rfl
      apply z
      cases d with
      | fin d =>
        simp only [Dbl.le, decide_eq_true_eq] at hd hdd
        rw [le_antisymm hdd hd]
      | pinf => cases hdd
      | ninf => cases hd
      | nan => cases hd
    cases hle : Dbl.le d r with
    | true =>
      rw [a2 z hle] at hc
      cases hc
      cases hle' : Dbl.le d' r with
      | true => rw [b2 z' hle'] at hc'; cases hc'; exact le_rfl
      | false => have := small z' (lt_of_not_le hr hdn' hle') hc'; omega
    | false =>
      have hlt := lt_of_not_le hr hdn hle
      have hle' : Dbl.le d' r = false := by
        cases r <;> cases d <;> cases d' <;> (simp_all [Dbl.le, Dbl.lt]; try linarith)
      have hlt' := lt_of_not_le hr hdn' hle'
      rcases rosCostD_value h hw z hlt with ⟨e, -⟩ | ⟨-, y, y0, y1, e, hy⟩
      · rw [e] at hc; cases hc
      rcases rosCostD_value h hw z' hlt' with ⟨e', -⟩ | ⟨-, y', y0', y1', e', hy'⟩
      · rw [e'] at hc'; cases hc'
      rw [e] at hc
      rw [e'] at hc'
      cases hc
      cases hc'
      have hyy : y' ≤ y := by
        have hE := exponent_anti h hw (sub_beyond h hlt) (sub_beyond h hlt') (sub_mono h hlt hdd)
          (by rcases hy with ⟨x, ex, -⟩ | ⟨ex, -⟩ <;> rw [ex] <;> simp)
          (by rcases hy' with ⟨x, ex, -⟩ | ⟨ex, -⟩ <;> rw [ex] <;> simp)
        rcases hy' with ⟨x', ex', -, rfl⟩ | ⟨-, rfl⟩
        · rcases hy with ⟨x, ex, -, rfl⟩ | ⟨ex, -⟩
          · rw [ex, ex'] at hE
            have hE : x' ≤ x := by simpa [Dbl.le] using hE
            exact h.double.mono (by have := h.exp.mono hE; linarith)
          · rw [ex, ex'] at hE
            cases hE
        · exact y0
      have f1 := floor_toNat_le y1
      have f2 := floor_toNat_le y1'
      have f3 : ⌊y'⌋ ≤ ⌊y⌋ := Int.floor_le_floor hyy
      rw [UInt8.toNat_ofNat', UInt8.toNat_ofNat']
      omega

/-- C99 fails of parameters and distances that are NaN: beyond the inscribed radius, or with an inscribed radius that is NaN, the conversion to a
cost is undefined behaviour. -/
theorem C99_nan {r w d : Dbl K} (h0 : d ≠ .fin 0) (h : d = .nan ∨ r = .nan ∨ (w = .nan ∧ Dbl.le d r = false)) :
    rosCostD F Ff ex r w d = .ub := by
  have hle : Dbl.le d r = false := by
    rcases h with rfl | rfl | ⟨-, h⟩
    · cases r <;> rfl
    · cases d <;> rfl
    · exact h
  have hE : Dbl.mul F (.neg w) (.sub Ff d r) = .nan := by
    rcases h with rfl | rfl | ⟨rfl, -⟩
    · have : Dbl.sub Ff .nan r = .nan := by cases r <;> rfl
      rw [this]
      cases w <;> rfl
    · have : Dbl.sub Ff d .nan = .nan := by cases d <;> rfl
      rw [this]
      cases w <;> rfl
    · cases Dbl.sub Ff d r <;> rfl
  rw [rosCostD_beyond h0 hle, hE]
  rfl

/-- C99 fails of negative weights, as soon as the exponent is one: the cost would be more than 255. -/
theorem C99_negative (h : CostFormats F Ff ex) (h504 : 256 ≤ F.rd (252 * ex 1)) {r w d : K} (h0 : d ≠ 0) (hd : r < d)
    (he : 1 ≤ F.rd (-w * Ff.rd (d - r))) : rosCostD F Ff ex (.fin r) (.fin w) (.fin d) = .ub := by
  have hs : 0 ≤ Ff.rd (d - r) := by rw [← h.float.zero]; exact h.float.mono (by linarith)
  have hw : w < 0 := by
    by_contra hn
    push Not at hn
    have := h.double.mono (show -w * Ff.rd (d - r) ≤ 0 by nlinarith)
    rw [h.double.zero] at this
    linarith
  have ht := h.top
  have hinf : Dbl.mul F (.fin 252) .pinf = .pinf := by simp [Dbl.mul, Dbl.infOf]
  have hE : (∃ x, Dbl.mul F (.neg (.fin w)) (.sub Ff (.fin d) (.fin r)) = .fin x ∧ 1 ≤ x) ∨
      Dbl.mul F (.neg (.fin w)) (.sub Ff (.fin d) (.fin r)) = .pinf := by
    show (∃ x, Dbl.mul F (.fin (-w)) (.round Ff (d + -r)) = .fin x ∧ 1 ≤ x) ∨ Dbl.mul F (.fin (-w)) (.round Ff (d + -r)) = .pinf
    rw [← sub_eq_add_neg, Dbl.round]
    have htf := h.topf
    by_cases c : Ff.top ≤ Ff.rd (d - r)
    · rw [if_pos c]
      right
      have h1 : -w ≠ 0 := by linarith
      have h2 : 0 < -w := by linarith
      simp only [Dbl.mul, Dbl.infOf, if_neg h1, if_pos h2]
    · rw [if_neg c, if_neg (by linarith)]
      show (∃ x, Dbl.round F (-w * Ff.rd (d - r)) = .fin x ∧ 1 ≤ x) ∨ Dbl.round F (-w * Ff.rd (d - r)) = .pinf
      rw [Dbl.round]
      by_cases c : F.top ≤ F.rd (-w * Ff.rd (d - r))
      · rw [if_pos c]; exact .inr rfl
      · rw [if_neg c, if_neg (by linarith)]; exact .inl ⟨_, rfl, he⟩
  rw [rosCostD_beyond (by simpa using h0) (by simpa [Dbl.le] using hd)]
  rcases hE with ⟨x, e, hx⟩ | e
  · rw [e, Dbl.exp]
    by_cases c : F.top ≤ ex x
    · rw [if_pos c, hinf]
    · rw [if_neg c]
      show (match Dbl.round F (252 * ex x) with
        | .fin x => if -1 < x ∧ x < 256 then Res.ok (UInt8.ofNat ⌊x⌋.toNat) else .ub
        | _ => .ub) = .ub
      have h1 := h.exp.mono hx
      have h2 : 256 ≤ F.rd (252 * ex x) := h504.trans (h.double.mono (by linarith))
      rw [Dbl.round]
      by_cases c : F.top ≤ F.rd (252 * ex x)
      · rw [if_pos c]
      · rw [if_neg c, if_neg (by linarith)]
        dsimp only
        rw [if_neg (by rintro ⟨-, h⟩; linarith)]
  · rw [e, Dbl.exp, hinf]

/-! ## The tables -/

theorem mem_tableCells {n i j : Nat} : (i, j) ∈ tableCells n ↔ i < n ∧ j < n := by
  simp [tableCells]

open Classical in
theorem fillCosts_ok {entry : Nat → Nat → Res Cost} {f : Nat → Nat → Cost} : ∀ {cells : List (Nat × Nat)} {t : Mat Cost},
    (∀ i j, (i, j) ∈ cells → entry i j = .ok (f i j)) → ∃ t', fillCosts entry cells t = (.ok (), t') ∧ t'.rows = t.rows ∧
      t'.cols = t.cols ∧ ∀ x y, t'.get? x y =
        if ∃ i j, (i, j) ∈ cells ∧ x = (i : Int) ∧ y = (j : Int) then (t.get? x y).map fun _ => f x.toNat y.toNat else t.get? x y
  | [], t, _ => ⟨t, rfl, rfl, rfl, fun x y => by simp⟩
  | (i, j) :: cells, t, h => by
    obtain ⟨t', e, hr, hc, hg⟩ := fillCosts_ok (cells := cells) (t := t.set i j (f i j)) fun a b hab => h a b (.tail _ hab)
    refine ⟨t', ?_, hr, hc, fun x y => ?_⟩
    · rw [fillCosts, h i j (.head _)]
      exact e
    · rw [hg, Mat.get?_set]
      by_cases c : ∃ a b, (a, b) ∈ cells ∧ x = (a : Int) ∧ y = (b : Int)
      · have c' : ∃ a b, (a, b) ∈ (i, j) :: cells ∧ x = (a : Int) ∧ y = (b : Int) := by
          obtain ⟨a, b, h1, h2⟩ := c
          exact ⟨a, b, .tail _ h1, h2⟩
        simp only [if_pos c, if_pos c']
        split
        · rename_i hxy
          rw [hxy.1, hxy.2, Option.map_map]
          rfl
        · rfl
      · rw [if_neg c]
        by_cases hxy : x = (i : Int) ∧ y = (j : Int)
        · rw [if_pos hxy, if_pos ⟨i, j, .head _, hxy⟩, hxy.1, hxy.2, Int.toNat_natCast, Int.toNat_natCast]
        · rw [if_neg hxy, if_neg]
          rintro ⟨a, b, hab, hx, hy⟩
          rcases List.mem_cons.1 hab with e | hab
          · cases e; exact hxy ⟨hx, hy⟩
          · exact c ⟨a, b, hab, hx, hy⟩

theorem fillCosts_table {entry : Nat → Nat → Res Cost} {f : Nat → Nat → Cost} {n : Nat} (junk : Int → Int → Cost)
    (h : ∀ i j, i < n → j < n → entry i j = .ok (f i j)) :
    fillCosts entry (tableCells n) (Mat.ofFn n n junk) = (.ok (), Mat.ofFn n n fun i j => f i.toNat j.toNat) := by
  obtain ⟨t', e, hr, hc, hg⟩ := fillCosts_ok (entry := entry) (f := f) (cells := tableCells n) (t := Mat.ofFn n n junk)
    fun i j hij => h i j (mem_tableCells.1 hij).1 (mem_tableCells.1 hij).2
  rw [e]
  refine Prod.ext rfl (Mat.ext' hr hc fun x y => ?_)
  show t'.get? x y = _
  rw [hg, Mat.get?_ofFn, Mat.get?_ofFn]
  by_cases c : 0 ≤ x ∧ x < n ∧ 0 ≤ y ∧ y < n
  · rw [if_pos c, if_pos c, if_pos ⟨x.toNat, y.toNat, mem_tableCells.2 ⟨by omega, by omega⟩, by omega, by omega⟩]
    rfl
  · rw [if_neg c, if_neg c]
    split <;> rfl

/-- The first entry that has no cost ends the loop. -/
theorem fillCosts_stop {entry : Nat → Nat → Res Cost} {a b : Nat} (hbad : ∀ c, entry a b ≠ .ok c) : ∀ {pre post : List (Nat × Nat)} {t : Mat Cost},
    (∀ i j, (i, j) ∈ pre → ∃ c, entry i j = .ok c) →
    (fillCosts entry (pre ++ (a, b) :: post) t).1 = (entry a b).bind fun _ => .ok ()
  | [], post, t, _ => by
    rw [List.nil_append, fillCosts]
    cases e : entry a b with
    | ok c => exact absurd e (hbad c)
    | _ => rfl
  | (i, j) :: pre, post, t, h => by
    obtain ⟨c, hc⟩ := h i j (.head _)
    rw [List.cons_append, fillCosts, hc]
    exact fillCosts_stop hbad fun i j hij => h i j (.tail _ hij)

/-! ## Inflation -/

theorem inflateC_same {junk : Int → Int → Cost} (pop : Pop K) (hyp : Nat → Nat → K) (ls ld : String) {r : Dbl K}
    {computer : Dbl K → Res Cost} {g : K → Cost} {m : CostMap K} {n : Nat} (hr : cellsOfD F r (.fin m.resolution) = some n)
    (hn : n < 2 ^ 32 - 2)
    (hg : ∀ i j, i ≤ n + 1 → j ≤ n + 1 →
      computer (tableDistance Ff m.resolution (hyp i j)) = .ok (g (Ff.rd (Ff.rd m.resolution * hyp i j))))
    (o : Inflater K) (log : List Idx) :
    inflateC F Ff junk pop hyp ls ld r computer ⟨o, m, log⟩ = inflateU F Ff.rd pop hyp ls ld r g ⟨o, m, log⟩ := by
  unfold inflateC inflateU
  refine Act.bind_congr rfl fun _ s1 h1 => ?_
  obtain rfl : (⟨o, m, []⟩ : Inflation K) = s1 := (Prod.mk.inj h1).2
  refine Act.bind_congr rfl fun src s2 h2 => ?_
  obtain ⟨-, rfl⟩ : m.get ls = .ok src ∧ (⟨o, m, []⟩ : Inflation K) = s2 := Prod.mk.inj h2
  refine Act.bind_congr rfl fun _ s3 h3 => ?_
  have g3 : SameGeometry m s3.map := by
    rw [← (Prod.mk.inj h3).2]; exact CostMap.add_geometry ld src m
  refine Act.bind_congr ?_ fun _ s4 _ => rfl
  unfold prepareC prepareU
  dsimp only
  rw [g3.resolution, hr]
  dsimp only
  split
  · have e1 : (u32 ((n : Int) + 2)).toNat = n + 2 := by
      rw [u32_eq (by omega) (by omega)]; omega
    have e2 : (u32 ((n : Int) + 1)).toNat = n + 1 := by
      rw [u32_eq (by omega) (by omega)]; omega
    unfold computeCachesC computeCachesU
    dsimp only
    rw [e1, e2, if_pos (by omega), if_pos (by omega),
      fillCosts_table (f := fun i j => g (Ff.rd (Ff.rd m.resolution * hyp i j))) junk fun i j hi hj => hg i j (by omega) (by omega)]
  · rfl

/-- C99 (partial: distances that fit a `float`; resolutions from `2^128` on are undefined behaviour, see `C99_false_resolution`). When the
function has a cost for every distance in the tables, inflation with it is inflation as in C94. -/
theorem C99_same_partial {junk : Int → Int → Cost} (pop : Pop K) (hyp : Nat → Nat → K) (ls ld : String) {r : Dbl K}
    {computer : Dbl K → Res Cost} {g : K → Cost} {m : CostMap K} {n : Nat} (hr : cellsOfD F r (.fin m.resolution) = some n)
    (hn : n < 2 ^ 32 - 2) (hres : |Ff.rd m.resolution| < Ff.top)
    (hdist : ∀ i j, i ≤ n + 1 → j ≤ n + 1 → |Ff.rd (Ff.rd m.resolution * hyp i j)| < Ff.top)
    (hg : ∀ i j, i ≤ n + 1 → j ≤ n + 1 →
      computer (.fin (Ff.rd (Ff.rd m.resolution * hyp i j))) = .ok (g (Ff.rd (Ff.rd m.resolution * hyp i j))))
    (o : Inflater K) (log : List Idx) :
    inflateC F Ff junk pop hyp ls ld r computer ⟨o, m, log⟩ = inflateU F Ff.rd pop hyp ls ld r g ⟨o, m, log⟩ := by
  refine inflateC_same pop hyp ls ld hr hn (fun i j hi hj => ?_) o log
  obtain ⟨r1, r2⟩ := abs_lt.mp hres
  obtain ⟨d1, d2⟩ := abs_lt.mp (hdist i j hi hj)
  have : tableDistance Ff m.resolution (hyp i j) = .fin (Ff.rd (Ff.rd m.resolution * hyp i j)) := by
    unfold tableDistance
    rw [Dbl.round, if_neg (not_le.2 r2), if_neg (not_le.2 r1)]
    show Dbl.round Ff _ = _
    rw [Dbl.round, if_neg (not_le.2 d2), if_neg (not_le.2 d1)]
  rw [this]
  exact hg i j hi hj

/-- The state after the layer was added and before the caches are rebuilt, and what the call does then. -/
theorem inflateC_prepare {junk : Int → Int → Cost} (pop : Pop K) (hyp : Nat → Nat → K) {ls : String} (ld : String) (r : Dbl K)
    (computer : Dbl K → Res Cost) {m : CostMap K} (hc : m.Coherent) {src : Mat Cost} (hsrc : m.get ls = .ok src) (o : Inflater K)
    (log : List Idx) :
    inflateC F Ff junk pop hyp ls ld r computer ⟨o, m, log⟩ =
      Act.bind (prepareC F Ff junk hyp r computer) (fun _ =>
        Act.bind (Act.forEach (seedU ls ld) (colMajor (u32 src.rows).toNat (u32 src.cols).toNat)) fun _ =>
        Act.bind Act.get fun s => spreadU pop ls ld (s.map.size.x.toNat * s.map.size.y.toNat))
        ⟨o, (CostMap.add ld src m).2, []⟩ := by
  have e1 : (src.rows : Int) = m.size.x ∧ (src.cols : Int) = m.size.y := by
    refine hc.dims ls src ?_
    unfold CostMap.get at hsrc
    split at hsrc
    · rename_i a ha
      rw [ha, Res.ok.inj hsrc]
    · cases hsrc
  have hadd : (CostMap.add ld src m).1 = .ok () := by
    unfold CostMap.add
    rw [if_neg (by rw [e1.1]; simp), if_neg (by rw [e1.2]; simp)]
    split <;> rfl
  conv_lhs => unfold inflateC
  have h1 : (Act.modify (fun s : Inflation K => { s with pushed := [] })) ⟨o, m, log⟩ = (.ok (), ⟨o, m, []⟩) := rfl
  have h2 : (Act.read fun s : Inflation K => s.map.get ls) ⟨o, m, []⟩ = (.ok src, ⟨o, m, []⟩) := by
    show (m.get ls, _) = _
    rw [hsrc]
  have h3 : (onMap (CostMap.add ld src) : Act (Inflation K) Unit) ⟨o, m, []⟩ = (.ok (), ⟨o, (CostMap.add ld src m).2, []⟩) := by
    show ((CostMap.add ld src m).1, _) = _
    rw [hadd]
  rw [Act.bind_ok h1, Act.bind_ok h2, Act.bind_ok h3]

/-- What the rebuilding of the caches does when an entry of the table has no cost. -/
theorem prepareC_stop {junk : Int → Int → Cost} {hyp : Nat → Nat → K} {r : Dbl K} {computer : Dbl K → Res Cost} {s : Inflation K} {n : Nat}
    (hr : cellsOfD F r (.fin s.map.resolution) = some n) (hn : n < 2 ^ 32 - 2) (ho : s.obj.cellRadius ≠ n) {a b : Nat}
    {pre post : List (Nat × Nat)} (hcells : tableCells (n + 2) = pre ++ (a, b) :: post)
    (hpre : ∀ i j, (i, j) ∈ pre → ∃ c, computer (tableDistance Ff s.map.resolution (hyp i j)) = .ok c)
    (hbad : ∀ c, computer (tableDistance Ff s.map.resolution (hyp a b)) ≠ .ok c) :
    ∃ o', prepareC F Ff junk hyp r computer s =
      ((computer (tableDistance Ff s.map.resolution (hyp a b))).bind fun _ => .ok (), ⟨o', s.map, s.pushed⟩) ∧
      o'.cellRadius = n ∧ o'.queue = s.obj.queue := by
  have e1 : (u32 ((n : Int) + 2)).toNat = n + 2 := by
    rw [u32_eq (by omega) (by omega)]; omega
  have e2 : (u32 ((n : Int) + 1)).toNat = n + 1 := by
    rw [u32_eq (by omega) (by omega)]; omega
  unfold prepareC
  dsimp only
  rw [hr]
  dsimp only
  rw [if_pos (Ne.symm ho)]
  unfold computeCachesC
  dsimp only
  rw [e1, e2, if_pos (by omega), hcells, fillCosts_stop (entry := fun i j => computer (tableDistance Ff s.map.resolution (hyp i j))) hbad hpre]
  exact ⟨_, rfl, rfl, rfl⟩

/-- A list with an element that fails has a first one that fails. -/
theorem first_bad {α : Type} {P : α → Prop} : ∀ {l : List α} {x : α}, x ∈ l → ¬ P x → ∃ pre y post, l = pre ++ y :: post ∧ ¬ P y ∧ ∀ z ∈ pre, P z
  | z :: l, x, hx, hn => by
    classical
    by_cases hz : P z
    · rcases List.mem_cons.1 hx with rfl | hx
      · exact absurd hz hn
      · obtain ⟨pre, y, post, rfl, h1, h2⟩ := first_bad hx hn
        exact ⟨z :: pre, y, post, rfl, h1, fun u hu => by
          rcases List.mem_cons.1 hu with rfl | hu
          · exact hz
          · exact h2 u hu⟩
    · exact ⟨[], z, l, rfl, hz, fun u hu => by cases hu⟩

/-- C99. When the caches are rebuilt, one distance in the tables without a cost is enough for undefined behaviour, whether or not a cell has
that distance from an obstacle. -/
theorem C99_tables {junk : Int → Int → Cost} (pop : Pop K) (hyp : Nat → Nat → K) {ls : String} (ld : String) {r : Dbl K}
    {computer : Dbl K → Res Cost} (hcomp : ∀ d, computer d = .ub ∨ ∃ c, computer d = .ok c) {m : CostMap K} (hc : m.Coherent)
    (hls : m.exists ls = true) {n : Nat} (hr : cellsOfD F r (.fin m.resolution) = some n) (hn : n < 2 ^ 32 - 2) {o : Inflater K}
    (ho : o.cellRadius ≠ n) {a b : Nat} (ha : a ≤ n + 1) (hb : b ≤ n + 1)
    (hbad : computer (tableDistance Ff m.resolution (hyp a b)) = .ub) (log : List Idx) :
    (inflateC F Ff junk pop hyp ls ld r computer ⟨o, m, log⟩).1 = .ub := by
  obtain ⟨src, hsrc⟩ : ∃ a, m.get ls = .ok a := by
    obtain ⟨a, ha⟩ := CostMap.exists_iff.mp hls
    exact ⟨a, by unfold CostMap.get; rw [ha]⟩
  have g3 : SameGeometry m (CostMap.add ld src m).2 := CostMap.add_geometry ld src m
  rw [inflateC_prepare pop hyp ld r computer hc hsrc]
  obtain ⟨pre, ⟨i, j⟩, post, hcells, h1, h2⟩ := first_bad
    (P := fun c => ∃ v, computer (tableDistance Ff m.resolution (hyp c.1 c.2)) = .ok v)
    (mem_tableCells.2 (⟨by omega, by omega⟩ : a < n + 2 ∧ b < n + 2)) (by rintro ⟨v, hv⟩; rw [hbad] at hv; cases hv)
  obtain ⟨o', e, -⟩ := prepareC_stop (F := F) (Ff := Ff) (junk := junk) (hyp := hyp) (r := r) (computer := computer)
    (s := ⟨o, (CostMap.add ld src m).2, []⟩) (n := n) (by dsimp only; rw [g3.resolution]; exact hr) hn ho hcells
    (by dsimp only; rw [g3.resolution]; exact fun i j hij => h2 (i, j) hij)
    (by dsimp only; rw [g3.resolution]; exact fun c hc => h1 ⟨c, hc⟩)
  have : computer (tableDistance Ff m.resolution (hyp i j)) = .ub := by
    rcases hcomp (tableDistance Ff m.resolution (hyp i j)) with h | h
    · exact h
    · exact absurd h h1
  dsimp only at e
  rw [g3.resolution, this] at e
  rw [Act.bind, e]
  rfl

theorem rosCostD_cases (r w d : Dbl K) : rosCostD F Ff ex r w d = .ub ∨ ∃ c, rosCostD F Ff ex r w d = .ok c := by
  unfold rosCostD
  repeat' split
  all_goals first | exact .inl rfl | exact .inr ⟨_, rfl⟩

/-- C99 fails of a weight that is NaN: inflation with it is undefined behaviour on every map, even without obstacles, if a distance in the
tables is beyond the inscribed radius. -/
theorem C99_false_weight {junk : Int → Int → Cost} (pop : Pop K) (hyp : Nat → Nat → K) {ls : String} (ld : String) {radius : Dbl K}
    {m : CostMap K} (hc : m.Coherent) (hls : m.exists ls = true) {n : Nat} (hr : cellsOfD F radius (.fin m.resolution) = some n)
    (hn : n < 2 ^ 32 - 2) {o : Inflater K} (ho : o.cellRadius ≠ n) {a b : Nat} (ha : a ≤ n + 1) (hb : b ≤ n + 1) {d : K} (hd : d ≠ 0)
    (htab : tableDistance Ff m.resolution (hyp a b) = .fin d) {r : K} (hrd : r < d) (log : List Idx) :
    (inflateC F Ff junk pop hyp ls ld radius (rosCostD F Ff ex (.fin r) .nan) ⟨o, m, log⟩).1 = .ub := by
  refine C99_tables pop hyp ld (rosCostD_cases _ _) hc hls hr hn ho ha hb ?_ log
  rw [htab]
  exact C99_nan (by simpa using hd) (.inr (.inr ⟨rfl, by simpa [Dbl.le] using hrd⟩))

/-- C99 fails of negative weights: inflation with them is undefined behaviour on every map, even without obstacles, if for a distance in the
tables the exponent is one or more. -/
theorem C99_false_negative (h : CostFormats F Ff ex) (h504 : 256 ≤ F.rd (252 * ex 1)) {junk : Int → Int → Cost} (pop : Pop K)
    (hyp : Nat → Nat → K) {ls : String} (ld : String) {radius : Dbl K} {m : CostMap K} (hc : m.Coherent) (hls : m.exists ls = true)
    {n : Nat} (hr : cellsOfD F radius (.fin m.resolution) = some n) (hn : n < 2 ^ 32 - 2) {o : Inflater K} (ho : o.cellRadius ≠ n)
    {a b : Nat} (ha : a ≤ n + 1) (hb : b ≤ n + 1) {d : K} (hd : d ≠ 0) (htab : tableDistance Ff m.resolution (hyp a b) = .fin d)
    {r w : K} (hrd : r < d) (he : 1 ≤ F.rd (-w * Ff.rd (d - r))) (log : List Idx) :
    (inflateC F Ff junk pop hyp ls ld radius (rosCostD F Ff ex (.fin r) (.fin w)) ⟨o, m, log⟩).1 = .ub := by
  refine C99_tables pop hyp ld (rosCostD_cases _ _) hc hls hr hn ho ha hb ?_ log
  rw [htab]
  exact C99_negative h h504 hd hrd he

/-- C99 fails of resolutions that are too large for a `float`: the distance of an obstacle to itself is NaN then. -/
theorem C99_false_resolution {junk : Int → Int → Cost} (pop : Pop K) {hyp : Nat → Nat → K} (h00 : hyp 0 0 = 0) {ls : String} (ld : String)
    {radius : Dbl K} {m : CostMap K} (hc : m.Coherent) (hls : m.exists ls = true) {n : Nat}
    (hr : cellsOfD F radius (.fin m.resolution) = some n) (hn : n < 2 ^ 32 - 2) {o : Inflater K} (ho : o.cellRadius ≠ n)
    (hres : Ff.top ≤ Ff.rd m.resolution) (r w : Dbl K) (log : List Idx) :
    (inflateC F Ff junk pop hyp ls ld radius (rosCostD F Ff ex r w) ⟨o, m, log⟩).1 = .ub := by
  refine C99_tables pop hyp ld (rosCostD_cases _ _) hc hls hr hn ho (a := 0) (b := 0) (by omega) (by omega) ?_ log
  have : tableDistance Ff m.resolution (hyp 0 0) = .nan := by
    unfold tableDistance
    rw [Dbl.round, if_pos hres, h00]
    simp [Dbl.mul, Dbl.infOf]
  rw [this]
  exact C99_nan (by simp) (.inl rfl)

/-- The cost the ROS function has for a number. -/
def rosValue (F Ff : Fmt K) (ex : K → K) (r w d : K) : Cost :=
  match rosCostD F Ff ex (.fin r) (.fin w) (.fin d) with
  | .ok c => c
  | _ => 0

/-- The cost of a number that fits: nothing is undefined when the inscribed radius and the weight are not negative. -/
theorem rosValue_spec (h : CostFormats F Ff ex) {r w d : K} (hr : 0 ≤ r) (hw : 0 ≤ w) (hd : 0 ≤ d) (hdd : Ff.rd d = d) (hdt : d < Ff.top) :
    rosCostD F Ff ex (.fin r) (.fin w) (.fin d) = .ok (rosValue F Ff ex r w d) ∧
    (d ≤ r → 253 ≤ (rosValue F Ff ex r w d).toNat) ∧ (d ≠ 0 → r < d → (rosValue F Ff ex r w d).toNat ≤ 252) := by
  obtain ⟨c1, c2, c3⟩ := C99_cost h (r := .fin r) (w := .fin w) (d := .fin d) (by simpa [Dbl.le] using hw) (by simpa [Dbl.le] using hd)
  have val : ∀ {c : Cost}, rosCostD F Ff ex (.fin r) (.fin w) (.fin d) = .ok c → rosValue F Ff ex r w d = c := by
    intro c e
    unfold rosValue
    rw [e]
  by_cases hle : d ≤ r
  · by_cases h0 : d = 0
    · have e := c1 (by rw [h0])
      rw [val e]
      exact ⟨e, fun _ => by decide, fun h => absurd h0 h⟩
    · have e := c2 (by simpa using h0) (by simpa [Dbl.le] using hle)
      rw [val e]
      exact ⟨e, fun _ => by decide, fun _ h => absurd hle (not_le.2 h)⟩
  · push Not at hle
    have h0 : d ≠ 0 := by linarith
    obtain ⟨e1, e2⟩ := c3 (by simpa using h0) (by simpa [Dbl.lt] using hle)
    have hnu : rosCostD F Ff ex (.fin r) (.fin w) (.fin d) ≠ .ub := by
      rw [Ne, e1]
      rintro (⟨-, hp⟩ | ⟨hp, -⟩)
      · have hs : Ff.rd (d - r) ≤ d := by
          have := h.float.mono (show d - r ≤ d by linarith)
          rwa [hdd] at this
        have hs0 : 0 ≤ Ff.rd (d - r) := by rw [← h.float.zero]; exact h.float.mono (by linarith)
        have ht := h.topf
        have : Dbl.sub Ff (.fin d) (.fin r) = .fin (Ff.rd (d - r)) := by
          show Dbl.round Ff (d + -r) = _
          rw [← sub_eq_add_neg, Dbl.round, if_neg (by linarith), if_neg (by linarith)]
        rw [this] at hp
        cases hp
      · cases hp
    obtain ⟨c, e, hc⟩ := e2 hnu
    rw [val e]
    exact ⟨e, fun h => absurd h (not_le.2 hle), fun _ _ => hc⟩

theorem combined_high {v c : Cost} (hc : 253 ≤ c.toNat) : 253 ≤ (combined v c).toNat := by
  unfold combined
  have hi : INSCRIBED_OBSTACLE ≤ c := by rw [UInt8.le_iff_toNat_le]; exact hc
  rw [if_pos hi]
  split
  · exact hc
  · split
    · rename_i h
      rw [UInt8.le_iff_toNat_le] at h
      omega
    · exact hc

theorem combined_low {v c : Cost} (hc : c.toNat ≤ 252) : (combined v c).toNat ≤ max v.toNat 252 := by
  unfold combined
  have hi : ¬ INSCRIBED_OBSTACLE ≤ c := by
    rw [UInt8.le_iff_toNat_le]
    have : INSCRIBED_OBSTACLE.toNat = 253 := rfl
    omega
  rw [if_neg hi]
  split
  · exact le_max_left _ _
  · split
    · exact le_max_left _ _
    · exact hc.trans (le_max_right _ _)

set_option maxHeartbeats 1000000 in
/-- C99 (partial: finite parameters that are not negative, and distances that fit a `float`). Inflation with the ROS cost function, in `double` and
`float`: the call returns; nothing but the destination layer changes; a cell within Manhattan distance of an obstacle, up to the smaller
of both radii, gets at least the inscribed cost; and a cell with no obstacle within `k` cells, when `k` cells are further than the
inscribed radius, gets no more than 252 or keeps its cost. Distances are up to the precision of the formats. -/
theorem C99_inflate_partial (h : CostFormats F Ff ex) (hF : IntsExact F.rd) (hFd : DoublePrecision F.rd) (hff : FloatPrecision Ff.rd)
    (hid : ∀ x, Ff.rd (Ff.rd x) = Ff.rd x) {junk : Int → Int → Cost} {pop : Pop K} (hpop : PopOk pop) {hyp : Nat → Nat → K}
    (hyp0 : ∀ i j, 0 ≤ hyp i j) {m : CostMap K} (hc : m.Coherent) (hX : m.size.x < 2 ^ 31) (hY : m.size.y < 2 ^ 31)
    (hres : 0 < m.resolution) {ls : String} (hls : m.exists ls = true) (ld : String) {radius r w : K} (h0 : 0 ≤ radius) (hr : 0 ≤ r)
    (hw : 0 ≤ w) (htop : |F.rd (radius / m.resolution)| < F.top) {n : Nat} (hn : n = ⌈F.rd (radius / m.resolution)⌉.toNat)
    (hn' : n < 2 ^ 32 - 2) (hh : HypOk hyp n) (hrt : Ff.rd m.resolution < Ff.top)
    (hdt : ∀ i j, i ≤ n + 1 → j ≤ n + 1 → Ff.rd (Ff.rd m.resolution * hyp i j) < Ff.top) {o : Inflater K}
    (ho : UsedU F Ff.rd hyp (rosValue F Ff ex r w) m.resolution o) (log : List Idx) :
    ∃ st', inflateC F Ff junk pop hyp ls ld (.fin radius) (rosCostD F Ff ex (.fin r) (.fin w)) ⟨o, m, log⟩ = (.ok (), st') ∧
      SameGeometry m st'.map ∧ SameMeta m st'.map ∧ st'.map.layers = (if m.exists ld then m.layers else m.layers ++ [ld]) ∧
      (∀ l, l ≠ ld → st'.map.get l = m.get l) ∧
      (∀ i v L, i.In m.size → m.at ls i = .ok v → m.Lethal ls L → (manhattan i L : K) * m.resolution ≤ radius * (1 - 1 / 2 ^ 53) →
        m.resolution * manhattan i L * (1 + 1 / 2 ^ 22) ≤ r → ∃ c, st'.map.at ld i = .ok c ∧ 253 ≤ c.toNat) ∧
      ∀ i v (k : Nat), i.In m.size → m.at ls i = .ok v → k ≤ n → r < m.resolution * k * (1 - 1 / 2 ^ 22) →
        (∀ q, m.Lethal ls q → k * k < sqDist i q) → ∃ c, st'.map.at ld i = .ok c ∧ c.toNat ≤ max v.toNat 252 := by
  have rf0 : 0 ≤ Ff.rd m.resolution := by rw [← h.float.zero]; exact h.float.mono hres.le
  have rd0 : ∀ i j, 0 ≤ Ff.rd (Ff.rd m.resolution * hyp i j) := fun i j => by
    rw [← h.float.zero]; exact h.float.mono (mul_nonneg rf0 (hyp0 i j))
  have spec : ∀ i j, i ≤ n + 1 → j ≤ n + 1 → _ := fun i j hi hj =>
    rosValue_spec h hr hw (rd0 i j) (hid (Ff.rd m.resolution * hyp i j)) (hdt i j hi hj)
  have hcells : cellsOfD F (.fin radius) (.fin m.resolution) = some n := by
    obtain ⟨t1, t2⟩ := abs_lt.mp htop
    rw [cellsOfD_fin hres.ne' t2 t1]
    unfold cellsOfRd
    rw [if_neg hres.ne', if_pos (by omega), hn]
  have heq := C99_same_partial (F := F) (Ff := Ff) (junk := junk) pop hyp ls ld (r := .fin radius)
    (computer := rosCostD F Ff ex (.fin r) (.fin w)) (g := rosValue F Ff ex r w) hcells hn'
    (by rw [abs_of_nonneg rf0]; exact hrt) (fun i j hi hj => by rw [abs_of_nonneg (rd0 i j)]; exact hdt i j hi hj)
    (fun i j hi hj => (spec i j hi hj).1) o log
  obtain ⟨st', e1, e2⟩ := C94_covers_partial hF hFd hc hX hY hres hls ld h0 htop (hn ▸ hn') hpop (hn ▸ hh) ho log
  obtain ⟨st'', f1, f2, f3, f4, f5, f6⟩ := C94_reach_partial hF hFd hc hX hY hres hls ld h0 htop (hn ▸ hn') hpop (hn ▸ hh) ho log
  obtain rfl : st' = st'' := by rw [e1] at f1; exact (Prod.mk.inj f1).2
  have hq := hFd (radius / m.resolution)
  have hq0 : 0 ≤ radius / m.resolution := div_nonneg h0 hres.le
  rw [abs_of_nonneg hq0, abs_le] at hq
  have hceil := Int.le_ceil (F.rd (radius / m.resolution))
  have hnc : F.rd (radius / m.resolution) ≤ (n : K) := by
    have : ⌈F.rd (radius / m.resolution)⌉ ≤ (n : Int) := by omega
    have : ((⌈F.rd (radius / m.resolution)⌉ : Int) : K) ≤ ((n : Int) : K) := by exact_mod_cast this
    push_cast at this
    linarith
  refine ⟨st', by rw [heq, e1], f2, f3, f4, f5, ?_, ?_⟩
  · intro i v L hi hv hL hm hmr
    obtain ⟨q, hq', hd, hat⟩ := e2 i v L hi hv hL hm
    refine ⟨_, hat, combined_high ?_⟩
    have hk : manhattan i L ≤ n := by
      have h3 : (manhattan i L : K) ≤ n := by
        have : (manhattan i L : K) ≤ radius * (1 - 1 / 2 ^ 53) / m.resolution := by
          rw [le_div_iff₀ hres]; exact hm
        have e2 : radius * (1 - 1 / 2 ^ 53) / m.resolution = radius / m.resolution - radius / m.resolution / 2 ^ 53 := by
          field_simp
        rw [e2] at this
        linarith [hq.1]
      exact_mod_cast h3
    unfold sqDist at hd
    have hdx : (i.x - q.x).natAbs ≤ manhattan i L := by
      by_contra hlt
      push Not at hlt
      have := Nat.mul_lt_mul'' hlt hlt
      omega
    have hdy : (i.y - q.y).natAbs ≤ manhattan i L := by
      by_contra hlt
      push Not at hlt
      have := Nat.mul_lt_mul'' hlt hlt
      omega
    have hle := (hh _ _ _ (by omega) (by omega) hk).2 hd
    refine (spec _ _ (by omega) (by omega)).2.1 ?_
    have h5 : Ff.rd (Ff.rd m.resolution * hyp (i.x - q.x).natAbs (i.y - q.y).natAbs) ≤ Ff.rd (Ff.rd m.resolution * (manhattan i L : K)) :=
      h.float.mono (mul_le_mul_of_nonneg_left hle rf0)
    have h6 := (abs_le.mp (C91_distance hff hres.le (Nat.cast_nonneg (manhattan i L)))).2
    linarith
  · intro i v k hi hv hkn hkr hfar
    rcases f6 i v hi hv with he | ⟨q, hq', hd, hat⟩
    · exact ⟨v, he, le_max_left _ _⟩
    · refine ⟨_, hat, combined_low ?_⟩
      have hR : 0 ≤ radius * (1 + 1 / 2 ^ 53) + m.resolution := by positivity
      have hbound : ∀ a b : Nat, ((a * a + b * b : Nat) : K) * m.resolution ^ 2 < (radius * (1 + 1 / 2 ^ 53) + m.resolution) ^ 2 → a ≤ n + 1 := by
        intro a b hab
        have h1 : ((a : K) * m.resolution) ^ 2 < (radius * (1 + 1 / 2 ^ 53) + m.resolution) ^ 2 := by
          refine lt_of_le_of_lt ?_ hab
          push_cast
          rw [mul_pow]
          have : (0 : K) ≤ (b : K) * b * m.resolution ^ 2 := by positivity
          linarith [show ((a : K) * a + b * b) * m.resolution ^ 2 = (a : K) ^ 2 * m.resolution ^ 2 + b * b * m.resolution ^ 2 by ring]
        have h2 : (a : K) * m.resolution < radius * (1 + 1 / 2 ^ 53) + m.resolution := lt_of_pow_lt_pow_left₀ 2 hR h1
        have h3 : (a : K) < radius / m.resolution * (1 + 1 / 2 ^ 53) + 1 := by
          rw [← lt_div_iff₀ hres] at h2
          refine lt_of_lt_of_eq h2 ?_
          field_simp
        have h4 : (n : K) < 2 ^ 32 := by
          have : n < 2 ^ 32 := by omega
          exact_mod_cast this
        have h5 : (a : K) < n + 2 := by
          have hqn : radius / m.resolution * (1 - 1 / 2 ^ 53) ≤ n := by linarith [hq.1]
          have hq32 : radius / m.resolution ≤ 2 ^ 33 := by
            have : radius / m.resolution * (1 / 2) ≤ radius / m.resolution * (1 - 1 / 2 ^ 53) :=
              mul_le_mul_of_nonneg_left (by norm_num) hq0
            linarith
          linarith
        have h6 : a < n + 2 := by exact_mod_cast h5
        omega
      have hdx : (i.x - q.x).natAbs ≤ n + 1 := hbound _ (i.y - q.y).natAbs hd
      have hdy : (i.y - q.y).natAbs ≤ n + 1 := hbound _ (i.x - q.x).natAbs (by unfold sqDist at hd; rw [Nat.add_comm]; exact hd)
      have hlt : (k : K) < hyp (i.x - q.x).natAbs (i.y - q.y).natAbs := by
        by_contra hle
        push Not at hle
        have h1 := (hh _ _ k hdx hdy hkn).1 hle
        have h2 := hfar q hq'
        unfold sqDist at h2
        omega
      have h5 : Ff.rd (Ff.rd m.resolution * (k : K)) ≤ Ff.rd (Ff.rd m.resolution * hyp (i.x - q.x).natAbs (i.y - q.y).natAbs) :=
        h.float.mono (mul_le_mul_of_nonneg_left hlt.le rf0)
      have h6 := (abs_le.mp (C91_distance hff hres.le (Nat.cast_nonneg k))).1
      have h7 : r < Ff.rd (Ff.rd m.resolution * hyp (i.x - q.x).natAbs (i.y - q.y).natAbs) := by linarith
      exact (spec _ _ hdx hdy).2.2 (by linarith) h7

/-! ## C100 -/

/-- C100. When the cost function throws, the call throws the same; the map has the destination layer, which is the source layer then, and is
otherwise as before. -/
theorem C100_throw {junk : Int → Int → Cost} (pop : Pop K) (hyp : Nat → Nat → K) {ls : String} (ld : String) {r : Dbl K}
    {computer : Dbl K → Res Cost} {m : CostMap K} (hc : m.Coherent) {src : Mat Cost} (hsrc : m.get ls = .ok src) {n : Nat}
    (hr : cellsOfD F r (.fin m.resolution) = some n) (hn : n < 2 ^ 32 - 2) {o : Inflater K} (ho : o.cellRadius ≠ n) {a b : Nat}
    {pre post : List (Nat × Nat)} (hcells : tableCells (n + 2) = pre ++ (a, b) :: post)
    (hpre : ∀ i j, (i, j) ∈ pre → ∃ c, computer (tableDistance Ff m.resolution (hyp i j)) = .ok c) {e : Exn}
    (hbad : computer (tableDistance Ff m.resolution (hyp a b)) = .thrown e) (log : List Idx) :
    ∃ o', inflateC F Ff junk pop hyp ls ld r computer ⟨o, m, log⟩ = (.thrown e, ⟨o', (CostMap.add ld src m).2, []⟩) ∧
      o'.cellRadius = n ∧ o'.queue = o.queue := by
  have g3 : SameGeometry m (CostMap.add ld src m).2 := CostMap.add_geometry ld src m
  rw [inflateC_prepare pop hyp ld r computer hc hsrc]
  obtain ⟨o', e1, e2⟩ := prepareC_stop (F := F) (Ff := Ff) (junk := junk) (hyp := hyp) (r := r) (computer := computer)
    (s := ⟨o, (CostMap.add ld src m).2, []⟩) (n := n) (by dsimp only; rw [g3.resolution]; exact hr) hn ho hcells
    (by dsimp only; rw [g3.resolution]; exact hpre)
    (by dsimp only; rw [g3.resolution]; exact fun c hc => by rw [hbad] at hc; cases hc)
  dsimp only at e1
  rw [g3.resolution, hbad] at e1
  refine ⟨o', ?_, e2⟩
  rw [Act.bind, e1]
  rfl

/-- C100. A cost function that throws at one of the distances within reach makes the call throw one of its exceptions, on every map; only the
destination layer, which holds the source layer then, differs from before. -/
theorem C100_throws {junk : Int → Int → Cost} (pop : Pop K) (hyp : Nat → Nat → K) {ls : String} (ld : String) {r : Dbl K}
    {computer : Dbl K → Res Cost} (hcomp : ∀ d, (∃ e, computer d = .thrown e) ∨ ∃ c, computer d = .ok c) {m : CostMap K} (hc : m.Coherent)
    {src : Mat Cost} (hsrc : m.get ls = .ok src) {n : Nat} (hr : cellsOfD F r (.fin m.resolution) = some n) (hn : n < 2 ^ 32 - 2)
    {o : Inflater K} (ho : o.cellRadius ≠ n) {a b : Nat} (ha : a ≤ n + 1) (hb : b ≤ n + 1) {e : Exn}
    (hbad : computer (tableDistance Ff m.resolution (hyp a b)) = .thrown e) (log : List Idx) :
    ∃ e' d o', computer d = .thrown e' ∧
      inflateC F Ff junk pop hyp ls ld r computer ⟨o, m, log⟩ = (.thrown e', ⟨o', (CostMap.add ld src m).2, []⟩) := by
  obtain ⟨pre, ⟨i, j⟩, post, hcells, h1, h2⟩ := first_bad
    (P := fun c => ∃ v, computer (tableDistance Ff m.resolution (hyp c.1 c.2)) = .ok v)
    (mem_tableCells.2 (⟨by omega, by omega⟩ : a < n + 2 ∧ b < n + 2)) (by rintro ⟨v, hv⟩; rw [hbad] at hv; cases hv)
  rcases hcomp (tableDistance Ff m.resolution (hyp i j)) with ⟨e', he⟩ | hok
  · obtain ⟨o', h3, -⟩ := C100_throw (F := F) (Ff := Ff) (junk := junk) pop hyp ld hc hsrc hr hn ho hcells (fun i j hij => h2 (i, j) hij) he log
    exact ⟨e', _, o', he, h3⟩
  · exact absurd hok h1

/-- C100 (partial: false with a radius of the same number of cells, see `C100_false`). After an exception, a call with a radius of another
number of cells does what it does with a new `Inflate` object: same result, same map, same object afterwards. -/
theorem C100_recovers_partial {junk : Int → Int → Cost} (pop : Pop K) (hyp : Nat → Nat → K) {ls : String} (ld : String) {r : Dbl K}
    (computer : Dbl K → Res Cost) {m : CostMap K} (hc : m.Coherent) (hls : m.exists ls = true) {n : Nat}
    (hr : cellsOfD F r (.fin m.resolution) = some n) (hn : n < 2 ^ 32 - 2)
    {o : Inflater K} (ho : o.cellRadius ≠ n) (hq : o.queue = []) (log : List Idx) :
    inflateC F Ff junk pop hyp ls ld r computer ⟨o, m, log⟩ = inflateC F Ff junk pop hyp ls ld r computer ⟨Inflater.new, m, log⟩ := by
  obtain ⟨src, hsrc⟩ : ∃ a, m.get ls = .ok a := by
    obtain ⟨a, ha⟩ := CostMap.exists_iff.mp hls
    exact ⟨a, by unfold CostMap.get; rw [ha]⟩
  rw [inflateC_prepare pop hyp ld r computer hc hsrc, inflateC_prepare pop hyp ld r computer hc hsrc]
  have g3 : SameGeometry m (CostMap.add ld src m).2 := CostMap.add_geometry ld src m
  have : prepareC F Ff junk hyp r computer ⟨o, (CostMap.add ld src m).2, []⟩ =
      prepareC F Ff junk hyp r computer ⟨Inflater.new, (CostMap.add ld src m).2, []⟩ := by
    obtain ⟨a, b, c, d, e⟩ := o
    obtain rfl : d = [] := hq
    unfold prepareC
    dsimp only
    rw [g3.resolution, hr]
    dsimp only
    rw [if_pos (show n ≠ e from fun h => ho h.symm), if_pos (show n ≠ (Inflater.new : Inflater K).cellRadius by
      show n ≠ 2 ^ 32 - 1
      omega)]
    have e1 : (u32 ((n : Int) + 2)).toNat = n + 2 := by
      rw [u32_eq (by omega) (by omega)]; omega
    have e2 : (u32 ((n : Int) + 1)).toNat = n + 1 := by
      rw [u32_eq (by omega) (by omega)]; omega
    unfold computeCachesC
    dsimp only
    rw [e1, e2, if_pos (by omega), if_pos (by omega)]
    rfl
  unfold Act.bind
  rw [this]

/-- With the number of cells of the last call, even one that threw, the cost function is not used: any other gives the same. -/
theorem C100_ignored {junk : Int → Int → Cost} (pop : Pop K) (hyp : Nat → Nat → K) (ls ld : String) {r : Dbl K} {m : CostMap K} {n : Nat}
    (hr : cellsOfD F r (.fin m.resolution) = some n) {o : Inflater K} (ho : o.cellRadius = n) (computer computer' : Dbl K → Res Cost)
    (log : List Idx) :
    inflateC F Ff junk pop hyp ls ld r computer ⟨o, m, log⟩ = inflateC F Ff junk pop hyp ls ld r computer' ⟨o, m, log⟩ := by
  unfold inflateC
  refine Act.bind_congr rfl fun _ s1 h1 => ?_
  obtain rfl : (⟨o, m, []⟩ : Inflation K) = s1 := (Prod.mk.inj h1).2
  refine Act.bind_congr rfl fun src s2 h2 => ?_
  obtain ⟨-, rfl⟩ : m.get ls = .ok src ∧ (⟨o, m, []⟩ : Inflation K) = s2 := Prod.mk.inj h2
  refine Act.bind_congr rfl fun _ s3 h3 => ?_
  have g3 : SameGeometry m s3.map := by
    rw [← (Prod.mk.inj h3).2]; exact CostMap.add_geometry ld src m
  have o3 : s3.obj = o := by rw [← (Prod.mk.inj h3).2]
  refine Act.bind_congr ?_ fun _ _ _ => rfl
  unfold prepareC
  dsimp only
  rw [g3.resolution, hr, o3]
  dsimp only
  rw [if_neg (fun h => h ho.symm), if_neg (fun h => h ho.symm)]

end

open Demo in
/-- C100 fails of a second call with the same radius: after the exception it returns, and the costs it gives are what was in memory
(`junk`), here 77, although the cost function gives 100, which is what a new object gives. -/
theorem C100_false (e : Exn) :
    let first := inflateC binary64 binary32 (fun _ _ => 77) pop hyp "s" "t" (.fin (toFloat (3 / 10))) (fun _ => .thrown e)
      ⟨Inflater.new, tenthRow, []⟩
    let second := inflateC binary64 binary32 (fun _ _ => 77) pop hyp "s" "t" (.fin (toFloat (3 / 10))) (fun _ => .ok 100) first.2
    let fresh := inflateC binary64 binary32 (fun _ _ => 77) pop hyp "s" "t" (.fin (toFloat (3 / 10))) (fun _ => .ok 100)
      ⟨Inflater.new, first.2.map, []⟩
    first.1 = .thrown e ∧ second.1 = .ok () ∧ second.2.map.at "t" ⟨0, 2⟩ = .ok 77 ∧ fresh.2.map.at "t" ⟨0, 2⟩ = .ok 100 := by
  cases e <;> decide +kernel

namespace Demo

/-- Something with the assumed properties of `std::exp` that grows above zero. -/
def growExp (x : ℚ) : ℚ := if 0 < x then 3 else if 0 ≤ x then 1 else 0

theorem growExp_ok : ExpOk growExp where
  mono := by intro x y h; unfold growExp; split_ifs <;> linarith
  nonneg := by intro x; unfold growExp; split_ifs <;> norm_num
  zero := by decide +kernel

theorem costFormats : CostFormats binary64 binary32 growExp where
  double := binRound_ok (p := 53) (by norm_num)
  float := binRound_ok (p := 24) (by norm_num)
  n252 := by decide +kernel
  top := by decide +kernel
  topf := by decide +kernel
  exp := growExp_ok

theorem toFloat_idem (x : ℚ) : toFloat (toFloat x) = toFloat x :=
  binRound_exact (by norm_num) (binRound_nearest (by norm_num) x).1

theorem hypot_nonneg (i j : Nat) : 0 ≤ toFloat (hypot i j) := by
  have h := (binRound_ok (p := 24) (by norm_num)).mono (show 0 ≤ hypot i j by unfold hypot; positivity)
  rwa [(binRound_ok (p := 24) (by norm_num)).zero] at h

end Demo

open Demo in
/-- The obstacle of the row; inflation radius 0.3 m, inscribed radius 0.15 m. -/
example : ∃ st', inflateC binary64 binary32 (fun _ _ => 77) pop (fun i j => toFloat (hypot i j)) "s" "t" (.fin (toFloat (3 / 10)))
      (rosCostD binary64 binary32 growExp (.fin (3 / 20)) (.fin 5)) ⟨Inflater.new, tenthRow, []⟩ = (.ok (), st') ∧
    (∃ c, st'.map.at "t" ⟨0, 3⟩ = .ok c ∧ 253 ≤ c.toNat) ∧ ∃ c, st'.map.at "t" ⟨0, 1⟩ = .ok c ∧ c.toNat ≤ 252 := by
  have hn : (4 : Nat) = ⌈binary64.rd (toFloat (3 / 10) / tenthRow.resolution)⌉.toNat := by decide +kernel
  have htab : ∀ i j, i ≤ 4 + 1 → j ≤ 4 + 1 → binary32.rd (binary32.rd tenthRow.resolution * toFloat (hypot i j)) < binary32.top := by
    intro i j hi hj
    have : ∀ i : Fin 6, ∀ j : Fin 6, binary32.rd (binary32.rd tenthRow.resolution * toFloat (hypot i j)) < binary32.top := by decide +kernel
    exact this ⟨i, by omega⟩ ⟨j, by omega⟩
  obtain ⟨st', h1, -, -, -, -, h2, h3⟩ := C99_inflate_partial (junk := fun _ _ => 77) costFormats toDouble_ints toDouble_precision toFloat_precision
    toFloat_idem pop_ok hypot_nonneg tenthRow_coherent (by decide +kernel) (by decide +kernel) (by decide +kernel) (ls := "s") (by decide +kernel) "t"
    (radius := toFloat (3 / 10)) (r := 3 / 20) (w := 5) (by decide +kernel) (by norm_num) (by norm_num) (by decide +kernel) hn (by norm_num)
    ((C91_hypot hypot_ok _).2 (by norm_num)) (by decide +kernel) htab .new []
  refine ⟨st', h1, h2 ⟨0, 3⟩ 0 ⟨0, 4⟩ (by decide +kernel) (by decide +kernel) ⟨by decide +kernel, by decide +kernel⟩ (by decide +kernel)
    (by decide +kernel), ?_⟩
  refine h3 ⟨0, 1⟩ 0 2 (by decide +kernel) (by decide +kernel) (by norm_num) (by decide +kernel) ?_
  rintro q ⟨hq, hv⟩
  have hq4 : q = ⟨0, 4⟩ := by
    obtain ⟨x, y⟩ := q
    obtain ⟨a, b, c, d⟩ := hq
    have hx : x < 1 := lt_of_lt_of_eq b (by decide +kernel)
    have hy : y < 9 := lt_of_lt_of_eq d (by decide +kernel)
    dsimp only at a c
    obtain rfl : x = 0 := by omega
    have : ∀ y : Fin 9, tenthRow.at "s" ⟨0, (y : Nat)⟩ = .ok LETHAL_OBSTACLE → y = 4 := by decide +kernel
    have h4 := this ⟨y.toNat, by omega⟩ (by dsimp only; rw [Int.toNat_of_nonneg c]; exact hv)
    have h5 : y.toNat = 4 := congrArg Fin.val h4
    obtain rfl : y = 4 := by omega
    rfl
  rw [hq4]
  decide +kernel

open Demo in
/-- All of the parameters may be infinite. -/
example := (C99_cost costFormats (r := .fin (3 / 20)) (w := .pinf) (d := .fin 1) rfl rfl).2.2

open Demo in
example := C99_decreasing costFormats (r := .fin (3 / 20)) (w := .fin 5) (d := .fin (1 / 8)) (d' := .fin 2) (by simp) (by decide +kernel)
  (by decide +kernel) (by decide +kernel) (c := 253) (c' := 0) (by decide +kernel) (by decide +kernel)

open Demo in
/-- A negative weight, and one that is NaN, on the row. -/
example : (inflateC binary64 binary32 (fun _ _ => 77) pop hyp "s" "t" (.fin (toFloat (3 / 10)))
      (rosCostD binary64 binary32 growExp (.fin 0) (.fin (-20))) ⟨Inflater.new, tenthRow, []⟩).1 = .ub ∧
    (inflateC binary64 binary32 (fun _ _ => 77) pop hyp "s" "t" (.fin (toFloat (3 / 10)))
      (rosCostD binary64 binary32 growExp (.fin 0) .nan) ⟨Inflater.new, tenthRow, []⟩).1 = .ub :=
  have htab : tableDistance binary32 tenthRow.resolution (hyp 1 0) = .fin (toFloat (1 / 10)) := by
    unfold tableDistance
    rw [Dbl.round, if_neg (by decide +kernel), if_neg (by decide +kernel)]
    show Dbl.round _ _ = _
    rw [Dbl.round, if_neg (by decide +kernel), if_neg (by decide +kernel)]
    exact congrArg Dbl.fin (by decide +kernel)
  ⟨C99_false_negative costFormats (by decide +kernel) pop hyp "t" tenthRow_coherent (by decide +kernel) (n := 4) (by decide +kernel)
      (by norm_num) (by decide +kernel) (a := 1) (b := 0) (by norm_num) (by norm_num) (by decide +kernel) htab (by decide +kernel)
      (by decide +kernel) [],
    C99_false_weight pop hyp "t" tenthRow_coherent (by decide +kernel) (n := 4) (by decide +kernel)
      (by norm_num) (by decide +kernel) (a := 1) (b := 0) (by norm_num) (by norm_num) (by decide +kernel) htab (by decide +kernel) []⟩

open Demo in
example := C99_false_resolution (F := binary64) (Ff := binary32) (ex := growExp) (junk := fun _ _ => 77) pop (hyp := hyp) (by decide +kernel) "t"
  (radius := .fin 1) (m := { tenthRow with resolution := 2 ^ 200 })
  (by exact { tenthRow_coherent with }) (ls := "s") (by decide +kernel) (n := 1) (by decide +kernel) (by norm_num) (o := Inflater.new)
  (by decide +kernel) (by decide +kernel) (.fin 1) (.fin 1) []

open Demo in
/-- A cost function that throws for distances over 0.2 m. -/
example : ∃ e o' st', inflateC binary64 binary32 (fun _ _ => 77) pop hyp "s" "t" (.fin (toFloat (3 / 10)))
    (fun d => if Dbl.le d (.fin (1 / 5)) then .ok 100 else .thrown .runtimeError) ⟨Inflater.new, tenthRow, []⟩ = (.thrown e, ⟨o', st', []⟩) := by
  obtain ⟨src, hsrc⟩ : ∃ a, tenthRow.get "s" = .ok a := by
    obtain ⟨a, ha⟩ := CostMap.exists_iff.mp (show tenthRow.exists "s" = true by decide +kernel)
    exact ⟨a, by unfold CostMap.get; rw [ha]⟩
  obtain ⟨e, d, o', -, h⟩ := C100_throws (F := binary64) (Ff := binary32) (junk := fun _ _ => 77) pop hyp "t" (r := .fin (toFloat (3 / 10)))
    (computer := fun d => if Dbl.le d (.fin (1 / 5)) then .ok 100 else .thrown .runtimeError)
    (fun d => by split; exacts [.inr ⟨_, rfl⟩, .inl ⟨_, rfl⟩]) tenthRow_coherent hsrc (n := 4) (by decide +kernel) (by norm_num)
    (o := Inflater.new) (by decide +kernel) (a := 3) (b := 0) (by norm_num) (by norm_num) (e := .runtimeError) (by decide +kernel) []
  exact ⟨e, o', _, h⟩

open Demo in
/-- An object that threw with a radius of four cells, and a radius of three. -/
example := C100_recovers_partial (F := binary64) (Ff := binary32) (junk := fun _ _ => 77) pop hyp "t" (r := .fin (toFloat (2 / 10)))
  (fun _ => .ok 100) tenthRow_coherent (ls := "s") (by decide +kernel) (n := 3) (by decide +kernel) (by norm_num)
  (o := (inflateC binary64 binary32 (fun _ _ => 77) pop hyp "s" "t" (.fin (toFloat (3 / 10))) (fun _ => .thrown .runtimeError)
      ⟨Inflater.new, tenthRow, []⟩).2.obj) (by decide +kernel) (by decide +kernel) []

end CostMapModel

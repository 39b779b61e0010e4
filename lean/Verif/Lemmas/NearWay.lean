import Verif.Props.WayCheck

/-! # Points near a straight way and the cells of the line, with positions that may be a sixteenth of a cell outside of their cells -/

set_option linter.unusedSectionVars false

namespace CostMapModel
open CostMap
variable {K : Type} [Field K] [LinearOrder K] [IsStrictOrderedRing K] [FloorRing K]

/-- The coordinate `x` (in cells) lies in cell `c`, up to a sixteenth of a cell. -/
def Roughly (c : Int) (x : K) : Prop := (c : K) - 1 / 16 ≤ x ∧ x ≤ c + 1 + 1 / 16

theorem rough_conv {A B t : K} {a b : Int} (h0 : 0 ≤ t) (h1 : t ≤ 1) (hA : Roughly a A) (hB : Roughly b B) :
    -(1 / 16) ≤ A + t * (B - A) - a - t * ((b : K) - a) ∧ A + t * (B - A) - a - t * ((b : K) - a) ≤ 1 + 1 / 16 := by
  obtain ⟨a0, a1⟩ := hA
  obtain ⟨b0, b1⟩ := hB
  have e : A + t * (B - A) - a - t * ((b : K) - a) = (1 - t) * (A - a) + t * (B - b) := by ring
  rw [e]
  constructor
  · nlinarith [mul_nonneg (sub_nonneg.mpr h1) (show (0 : K) ≤ A - a + 1 / 16 by linarith), mul_nonneg h0 (show (0 : K) ≤ B - b + 1 / 16 by linarith)]
  · nlinarith [mul_nonneg (sub_nonneg.mpr h1) (show (0 : K) ≤ 1 + 1 / 16 - (A - a) by linarith),
      mul_nonneg h0 (show (0 : K) ≤ 1 + 1 / 16 - (B - b) by linarith)]

theorem int_le_of_lt {n k : Int} (h : (n : K) < k + 1) : n ≤ k := by
  have : (n : K) < ((k + 1 : Int) : K) := by push_cast; exact h
  have := (Int.cast_lt (R := K)).mp this
  omega

/-- In the column of a point of the way, a cell of the line is at most two rows away. -/
theorem rough_core {A1 A2 B1 B2 t : K} {a1 a2 b1 b2 p1 p2 c2 : Int} (h0 : 0 ≤ t) (h1 : t ≤ 1) (hA1 : Roughly a1 A1) (hA2 : Roughly a2 A2)
    (hB1 : Roughly b1 B1) (hB2 : Roughly b2 B2) (hP1 : Roughly p1 (A1 + t * (B1 - A1))) (hP2 : Roughly p2 (A2 + t * (B2 - A2)))
    (hne : b1 ≠ a1) (hmaj : |b2 - a2| ≤ |b1 - a1|)
    (hn : 2 * |(p1 - a1) * (b2 - a2) - (c2 - a2) * (b1 - a1)| ≤ |b1 - a1|) : |p2 - c2| ≤ 2 := by
  obtain ⟨g10, g11⟩ := rough_conv h0 h1 hA1 hB1
  obtain ⟨g20, g21⟩ := rough_conv h0 h1 hA2 hB2
  obtain ⟨p10, p11⟩ := hP1
  obtain ⟨p20, p21⟩ := hP2
  set W1 := A1 + t * (B1 - A1)
  set W2 := A2 + t * (B2 - A2)
  have hD1ne : ((b1 : K) - a1) ≠ 0 := sub_ne_zero.mpr (by exact_mod_cast hne)
  have hpos : 0 < |(b1 : K) - a1| := abs_pos.mpr hD1ne
  set s := ((b2 : K) - a2) / ((b1 : K) - a1) with hs
  have hsD : s * ((b1 : K) - a1) = (b2 : K) - a2 := by rw [hs]; field_simp
  have hsle : |s| ≤ 1 := by
    rw [hs, abs_div, div_le_one hpos]
    exact_mod_cast hmaj
  have hoff : |((p1 : K) - a1) * s - ((c2 : K) - a2)| ≤ 1 / 2 := by
    have e : ((p1 : K) - a1) * s - ((c2 : K) - a2)
        = (((p1 - a1) * (b2 - a2) - (c2 - a2) * (b1 - a1) : Int) : K) / ((b1 : K) - a1) := by
      rw [hs]; push_cast; field_simp
    rw [e, abs_div, div_le_iff₀ hpos]
    have : (2 : K) * |(((p1 - a1) * (b2 - a2) - (c2 - a2) * (b1 - a1) : Int) : K)| ≤ |(b1 : K) - a1| := by exact_mod_cast hn
    linarith
  set q := W1 - p1 - (W1 - a1 - t * ((b1 : K) - a1)) with hq
  have hqle : |q| ≤ 1 + 1 / 8 := by rw [abs_le]; constructor <;> rw [hq] <;> linarith
  have hsq : |s * q| ≤ 1 + 1 / 8 := by
    rw [abs_mul]
    calc |s| * |q| ≤ 1 * |q| := mul_le_mul_of_nonneg_right hsle (abs_nonneg _)
      _ ≤ _ := by linarith
  have key : t * ((b2 : K) - a2) = ((p1 : K) - a1) * s + s * q := by
    rw [← hsD, hq]; ring
  obtain ⟨o1, o2⟩ := abs_le.mp hoff
  obtain ⟨q1, q2⟩ := abs_le.mp hsq
  rw [abs_le]
  constructor
  · have : c2 ≤ p2 + 2 := int_le_of_lt (K := K) (by push_cast; linarith)
    omega
  · have : p2 ≤ c2 + 2 := int_le_of_lt (K := K) (by push_cast; linarith)
    omega

/-- A point of the way whose cell lies before the column of the first end is next to that end. -/
theorem rough_end {A1 A2 B1 B2 t : K} {a1 a2 b1 b2 p1 p2 : Int} (h0 : 0 ≤ t) (h1 : t ≤ 1) (hA1 : Roughly a1 A1) (hA2 : Roughly a2 A2)
    (hB1 : Roughly b1 B1) (hB2 : Roughly b2 B2) (hP1 : Roughly p1 (A1 + t * (B1 - A1))) (hP2 : Roughly p2 (A2 + t * (B2 - A2)))
    (hmaj : |b2 - a2| ≤ |b1 - a1|) (hout : (p1 < a1 ∧ a1 ≤ b1) ∨ (a1 < p1 ∧ b1 ≤ a1) ∨ (p1 = a1 ∧ b1 = a1)) :
    |p1 - a1| ≤ 1 ∧ |p2 - a2| ≤ 1 := by
  obtain ⟨g10, g11⟩ := rough_conv h0 h1 hA1 hB1
  obtain ⟨g20, g21⟩ := rough_conv h0 h1 hA2 hB2
  obtain ⟨p10, p11⟩ := hP1
  obtain ⟨p20, p21⟩ := hP2
  set W1 := A1 + t * (B1 - A1)
  set W2 := A2 + t * (B2 - A2)
  have hmaj' : |(b2 : K) - a2| ≤ |(b1 : K) - a1| := by exact_mod_cast hmaj
  have small : t * |(b1 : K) - a1| ≤ 1 / 8 ∧ |p1 - a1| ≤ 1 := by
    rcases hout with ⟨u, v⟩ | ⟨u, v⟩ | ⟨u, v⟩
    · have u' : (p1 : K) + 1 ≤ a1 := by exact_mod_cast u
      have v' : (0 : K) ≤ (b1 : K) - a1 := by have : (a1 : K) ≤ b1 := by exact_mod_cast v
                                              linarith
      rw [abs_of_nonneg v']
      have tv := mul_nonneg h0 v'
      refine ⟨by linarith, ?_⟩
      have : a1 ≤ p1 + 1 := int_le_of_lt (K := K) (by push_cast; linarith)
      rw [abs_le]; omega
    · have u' : (a1 : K) + 1 ≤ p1 := by exact_mod_cast u
      have v' : (b1 : K) - a1 ≤ 0 := by have : (b1 : K) ≤ a1 := by exact_mod_cast v
                                        linarith
      rw [abs_of_nonpos v']
      have tv := mul_nonneg h0 (neg_nonneg.mpr v')
      refine ⟨by linarith, ?_⟩
      have : p1 ≤ a1 + 1 := int_le_of_lt (K := K) (by push_cast; linarith)
      rw [abs_le]; omega
    · rw [v, sub_self, abs_zero, mul_zero]
      exact ⟨by norm_num, by rw [u, sub_self, abs_zero]; norm_num⟩
  refine ⟨small.2, ?_⟩
  have h2 : |t * ((b2 : K) - a2)| ≤ 1 / 8 := by
    rw [abs_mul, abs_of_nonneg h0]
    exact (mul_le_mul_of_nonneg_left hmaj' h0).trans small.1
  obtain ⟨e1, e2⟩ := abs_le.mp h2
  rw [abs_le]
  constructor
  · have : a2 ≤ p2 + 1 := int_le_of_lt (K := K) (by push_cast; linarith)
    omega
  · have : p2 ≤ a2 + 1 := int_le_of_lt (K := K) (by push_cast; linarith)
    omega

/-- Along the longer axis, first coordinate. -/
theorem rough_major {A1 A2 B1 B2 t : K} {a1 a2 b1 b2 p1 p2 : Int} (h0 : 0 ≤ t) (h1 : t ≤ 1) (hA1 : Roughly a1 A1) (hA2 : Roughly a2 A2)
    (hB1 : Roughly b1 B1) (hB2 : Roughly b2 B2) (hP1 : Roughly p1 (A1 + t * (B1 - A1))) (hP2 : Roughly p2 (A2 + t * (B2 - A2)))
    (hmaj : |b2 - a2| ≤ |b1 - a1|) {S : Int → Int → Prop} (hSa : S a1 a2) (hSb : S b1 b2)
    (hS : ∀ k, min a1 b1 ≤ k → k ≤ max a1 b1 → ∃ c2, S k c2 ∧ 2 * |(k - a1) * (b2 - a2) - (c2 - a2) * (b1 - a1)| ≤ |b1 - a1|) :
    ∃ c1 c2, S c1 c2 ∧ (p1 - c1).natAbs + (p2 - c2).natAbs ≤ 2 := by
  have e1 : B1 + (1 - t) * (A1 - B1) = A1 + t * (B1 - A1) := by ring
  have e2 : B2 + (1 - t) * (A2 - B2) = A2 + t * (B2 - A2) := by ring
  have fromA : (p1 < a1 ∧ a1 ≤ b1) ∨ (a1 < p1 ∧ b1 ≤ a1) ∨ (p1 = a1 ∧ b1 = a1) → ∃ c1 c2, S c1 c2 ∧ (p1 - c1).natAbs + (p2 - c2).natAbs ≤ 2 := by
    intro ho
    obtain ⟨u, v⟩ := rough_end h0 h1 hA1 hA2 hB1 hB2 hP1 hP2 hmaj ho
    rw [abs_le] at u v
    exact ⟨a1, a2, hSa, by omega⟩
  have fromB : (p1 < b1 ∧ b1 ≤ a1) ∨ (b1 < p1 ∧ a1 ≤ b1) ∨ (p1 = b1 ∧ a1 = b1) → ∃ c1 c2, S c1 c2 ∧ (p1 - c1).natAbs + (p2 - c2).natAbs ≤ 2 := by
    intro ho
    obtain ⟨u, v⟩ := rough_end (t := 1 - t) (by linarith) (by linarith) hB1 hB2 hA1 hA2 (by rw [e1]; exact hP1) (by rw [e2]; exact hP2)
      (by rw [abs_sub_comm a2, abs_sub_comm a1]; exact hmaj) ho
    rw [abs_le] at u v
    exact ⟨b1, b2, hSb, by omega⟩
  by_cases hin : min a1 b1 ≤ p1 ∧ p1 ≤ max a1 b1
  · by_cases hne : b1 = a1
    · exact fromA (.inr (.inr ⟨by omega, hne⟩))
    · obtain ⟨c2, hc, hn⟩ := hS p1 hin.1 hin.2
      have := abs_le.mp (rough_core h0 h1 hA1 hA2 hB1 hB2 hP1 hP2 hne hmaj hn)
      exact ⟨p1, c2, hc, by omega⟩
  · by_cases hab : a1 ≤ b1
    · by_cases hlow : p1 < a1
      · exact fromA (.inl ⟨hlow, hab⟩)
      · exact fromB (.inr (.inl ⟨by omega, hab⟩))
    · by_cases hlow : p1 < b1
      · exact fromB (.inl ⟨hlow, by omega⟩)
      · exact fromA (.inr (.inl ⟨by omega, by omega⟩))

/-- A point of the way has a cell of the line at most two steps from its cell. -/
theorem rough_near {A B : Vec K} {t : K} {a b p : Idx} (h0 : 0 ≤ t) (h1 : t ≤ 1) (hAx : Roughly a.x A.x) (hAy : Roughly a.y A.y)
    (hBx : Roughly b.x B.x) (hBy : Roughly b.y B.y) (hPx : Roughly p.x (A.x + t * (B.x - A.x)))
    (hPy : Roughly p.y (A.y + t * (B.y - A.y))) {xs : List Idx} (h : DiscreteLine a b xs) : ∃ i ∈ xs, manhattan p i ≤ 2 := by
  have hfirst : a ∈ xs := List.mem_of_mem_head? (by rw [h.first]; rfl)
  have hlast : b ∈ xs := List.mem_of_mem_getLast? (by rw [h.last]; rfl)
  by_cases hm : |b.y - a.y| ≤ |b.x - a.x|
  · obtain ⟨c1, c2, hc, hd⟩ := rough_major h0 h1 hAx hAy hBx hBy hPx hPy hm (S := fun u v => (⟨u, v⟩ : Idx) ∈ xs) hfirst hlast (by
      intro k k0 k1
      obtain ⟨c, hc, rfl⟩ := way_through (f := Idx.x) (fun p q hpq => hpq.2.1) h.first h.last h.chain k0 k1
      have hn := h.near c hc
      rw [max_eq_left hm] at hn
      exact ⟨c.y, hc, hn⟩)
    exact ⟨⟨c1, c2⟩, hc, hd⟩
  · have hm' := (not_le.mp hm).le
    obtain ⟨c1, c2, hc, hd⟩ := rough_major h0 h1 hAy hAx hBy hBx hPy hPx hm' (S := fun u v => (⟨v, u⟩ : Idx) ∈ xs) hfirst hlast (by
      intro k k0 k1
      obtain ⟨c, hc, rfl⟩ := way_through (f := Idx.y) (fun p q hpq => hpq.2.2) h.first h.last h.chain k0 k1
      have hn := h.near c hc
      rw [max_eq_right hm', abs_sub_comm] at hn
      exact ⟨c.x, hc, hn⟩)
    exact ⟨⟨c2, c1⟩, hc, by unfold manhattan; simp only; omega⟩

/-- Along the longer axis: the point of the way at the fraction of a cell of the line, and how far it is from that cell's centre. -/
theorem rough_at {A1 A2 B1 B2 : K} {a1 a2 b1 b2 c1 c2 : Int} (hA1 : Roughly a1 A1) (hA2 : Roughly a2 A2) (hB1 : Roughly b1 B1)
    (hB2 : Roughly b2 B2) (hmaj : |b2 - a2| ≤ |b1 - a1|) (h0 : min a1 b1 ≤ c1) (h1 : c1 ≤ max a1 b1) (k0 : min a2 b2 ≤ c2)
    (k1 : c2 ≤ max a2 b2) (hn : 2 * |(c1 - a1) * (b2 - a2) - (c2 - a2) * (b1 - a1)| ≤ |b1 - a1|) :
    ∃ t : K, 0 ≤ t ∧ t ≤ 1 ∧ |A1 + t * (B1 - A1) - (c1 + 1 / 2)| ≤ 17 / 16 ∧ |A2 + t * (B2 - A2) - (c2 + 1 / 2)| ≤ 17 / 16 := by
  by_cases hne : b1 = a1
  · have : |b2 - a2| ≤ 0 := by rw [hne, sub_self, abs_zero] at hmaj; exact hmaj
    have := abs_le.mp this
    obtain rfl : c1 = a1 := by omega
    obtain rfl : c2 = a2 := by omega
    refine ⟨0, le_rfl, zero_le_one, ?_, ?_⟩
    · rw [zero_mul, add_zero, abs_le]; constructor <;> linarith [hA1.1, hA1.2]
    · rw [zero_mul, add_zero, abs_le]; constructor <;> linarith [hA2.1, hA2.2]
  have hD : ((b1 : K) - a1) ≠ 0 := sub_ne_zero.mpr (by exact_mod_cast hne)
  have hpos : 0 < |(b1 : K) - a1| := abs_pos.mpr hD
  have ht : 0 ≤ ((c1 : K) - a1) / ((b1 : K) - a1) ∧ ((c1 : K) - a1) / ((b1 : K) - a1) ≤ 1 := by
    rcases lt_or_gt_of_ne hne with h | h
    · have hb : (b1 : K) - a1 < 0 := by have : (b1 : K) < a1 := by exact_mod_cast h
                                        linarith
      have u : (c1 : K) ≤ a1 := by exact_mod_cast (show c1 ≤ a1 by omega)
      have v : (b1 : K) ≤ c1 := by exact_mod_cast (show b1 ≤ c1 by omega)
      exact ⟨div_nonneg_of_nonpos (by linarith) hb.le, by rw [div_le_one_of_neg hb]; linarith⟩
    · have hb : 0 < (b1 : K) - a1 := by have : (a1 : K) < b1 := by exact_mod_cast h
                                        linarith
      have u : (a1 : K) ≤ c1 := by exact_mod_cast (show a1 ≤ c1 by omega)
      have v : (c1 : K) ≤ b1 := by exact_mod_cast (show c1 ≤ b1 by omega)
      exact ⟨div_nonneg (by linarith) hb.le, by rw [div_le_one hb]; linarith⟩
  refine ⟨((c1 : K) - a1) / ((b1 : K) - a1), ht.1, ht.2, ?_, ?_⟩
  · obtain ⟨g0, g1⟩ := rough_conv ht.1 ht.2 hA1 hB1
    rw [div_mul_cancel₀ (c1 - a1 : K) hD] at g0 g1
    rw [abs_le]; constructor <;> linarith
  · obtain ⟨g0, g1⟩ := rough_conv ht.1 ht.2 hA2 hB2
    have hoff : |((c1 : K) - a1) / ((b1 : K) - a1) * ((b2 : K) - a2) - ((c2 : K) - a2)| ≤ 1 / 2 := by
      have e : ((c1 : K) - a1) / ((b1 : K) - a1) * ((b2 : K) - a2) - ((c2 : K) - a2)
          = (((c1 - a1) * (b2 - a2) - (c2 - a2) * (b1 - a1) : Int) : K) / ((b1 : K) - a1) := by
        push_cast; field_simp
      rw [e, abs_div, div_le_iff₀ hpos]
      have : (2 : K) * |(((c1 - a1) * (b2 - a2) - (c2 - a2) * (b1 - a1) : Int) : K)| ≤ |(b1 : K) - a1| := by exact_mod_cast hn
      linarith
    obtain ⟨o1, o2⟩ := abs_le.mp hoff
    rw [abs_le]; constructor <;> linarith

/-- The centre of every cell of the line is near a point of the way. -/
theorem rough_back {A B : Vec K} {a b : Idx} (hAx : Roughly a.x A.x) (hAy : Roughly a.y A.y) (hBx : Roughly b.x B.x)
    (hBy : Roughly b.y B.y) {xs : List Idx} (h : DiscreteLine a b xs) {i : Idx} (hi : i ∈ xs) :
    ∃ t : K, 0 ≤ t ∧ t ≤ 1 ∧ |A.x + t * (B.x - A.x) - (i.x + 1 / 2)| ≤ 17 / 16 ∧ |A.y + t * (B.y - A.y) - (i.y + 1 / 2)| ≤ 17 / 16 := by
  obtain ⟨x0, x1, y0, y1⟩ := h.box i hi
  have hn := h.near i hi
  by_cases hm : |b.y - a.y| ≤ |b.x - a.x|
  · rw [max_eq_left hm] at hn
    exact rough_at hAx hAy hBx hBy hm x0 x1 y0 y1 hn
  · have hm' := (not_le.mp hm).le
    rw [max_eq_right hm', abs_sub_comm] at hn
    obtain ⟨t, t0, t1, u, v⟩ := rough_at hAy hAx hBy hBx hm' y0 y1 x0 x1 hn
    exact ⟨t, t0, t1, v, u⟩

end CostMapModel

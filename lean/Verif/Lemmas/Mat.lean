import Verif.Model.Base

/-! # Lemmas on matrices -/

set_option linter.unusedSectionVars false

namespace CostMapModel
namespace Mat
variable {α β : Type}

theorem lin_lt {r c : Nat} {i j : Int} (hi : 0 ≤ i) (hi' : i < r) (hj : 0 ≤ j) (hj' : j < c) :
    (j * r + i).toNat < r * c := by
  obtain ⟨a, rfl⟩ := Int.eq_ofNat_of_zero_le hi
  obtain ⟨b, rfl⟩ := Int.eq_ofNat_of_zero_le hj
  have ha : a < r := by exact_mod_cast hi'
  have hb : b < c := by exact_mod_cast hj'
  have h : ((b : Int) * r + a).toNat = b * r + a := by
    have : ((b : Int) * r + a) = ((b * r + a : Nat) : Int) := by push_cast; ring
    rw [this, Int.toNat_natCast]
  rw [h]
  calc b * r + a < b * r + r := by omega
    _ = (b + 1) * r := by ring
    _ ≤ c * r := Nat.mul_le_mul_right _ hb
    _ = r * c := Nat.mul_comm _ _

theorem lin_mod {r : Nat} {i j : Int} (hi : 0 ≤ i) (hi' : i < r) (hj : 0 ≤ j) :
    (((j * r + i).toNat % r : Nat) : Int) = i := by
  obtain ⟨a, rfl⟩ := Int.eq_ofNat_of_zero_le hi
  obtain ⟨b, rfl⟩ := Int.eq_ofNat_of_zero_le hj
  have ha : a < r := by exact_mod_cast hi'
  have h : ((b : Int) * r + a).toNat = b * r + a := by
    have : ((b : Int) * r + a) = ((b * r + a : Nat) : Int) := by push_cast; ring
    rw [this, Int.toNat_natCast]
  rw [h, Nat.mul_add_mod_of_lt' ha]
where
  Nat.mul_add_mod_of_lt' {a b r : Nat} (ha : a < r) : (b * r + a) % r = a := by
    rw [Nat.add_comm, Nat.add_mul_mod_self_right, Nat.mod_eq_of_lt ha]

theorem lin_div {r : Nat} {i j : Int} (hi : 0 ≤ i) (hi' : i < r) (hj : 0 ≤ j) :
    (((j * r + i).toNat / r : Nat) : Int) = j := by
  obtain ⟨a, rfl⟩ := Int.eq_ofNat_of_zero_le hi
  obtain ⟨b, rfl⟩ := Int.eq_ofNat_of_zero_le hj
  have ha : a < r := by exact_mod_cast hi'
  have h : ((b : Int) * r + a).toNat = b * r + a := by
    have : ((b : Int) * r + a) = ((b * r + a : Nat) : Int) := by push_cast; ring
    rw [this, Int.toNat_natCast]
  rw [h, Nat.add_comm, Nat.add_mul_div_right _ _ (by omega), Nat.div_eq_of_lt ha]
  simp

@[simp] theorem rows_ofFn (r c : Nat) (f : Int → Int → α) : (ofFn r c f).rows = r := rfl
@[simp] theorem cols_ofFn (r c : Nat) (f : Int → Int → α) : (ofFn r c f).cols = c := rfl
@[simp] theorem rows_const (r c : Nat) (v : α) : (const r c v).rows = r := rfl
@[simp] theorem cols_const (r c : Nat) (v : α) : (const r c v).cols = c := rfl
@[simp] theorem rows_empty : (empty : Mat α).rows = 0 := rfl
@[simp] theorem cols_empty : (empty : Mat α).cols = 0 := rfl
@[simp] theorem rows_mapIdx (m : Mat α) (f : Int → Int → α → β) : (m.mapIdx f).rows = m.rows := rfl
@[simp] theorem cols_mapIdx (m : Mat α) (f : Int → Int → α → β) : (m.mapIdx f).cols = m.cols := rfl
@[simp] theorem rows_set (m : Mat α) (i j : Int) (v : α) : (m.set i j v).rows = m.rows := rfl
@[simp] theorem cols_set (m : Mat α) (i j : Int) (v : α) : (m.set i j v).cols = m.cols := rfl
@[simp] theorem rows_setConstant (m : Mat α) (v : α) : (m.setConstant v).rows = m.rows := rfl
@[simp] theorem cols_setConstant (m : Mat α) (v : α) : (m.setConstant v).cols = m.cols := rfl

theorem get?_of_not_inRange (m : Mat α) {i j : Int} (h : ¬ m.InRange i j) : m.get? i j = none := by
  simp [get?, h]

theorem get?_isSome_iff (m : Mat α) (i j : Int) : (m.get? i j).isSome ↔ m.InRange i j := by
  constructor
  · intro h
    by_contra hn
    simp [get?_of_not_inRange m hn] at h
  · intro h
    have := lin_lt h.1 h.2.1 h.2.2.1 h.2.2.2
    simp [get?, h, m.size_eq, this]

theorem get?_eq_none_iff (m : Mat α) (i j : Int) : m.get? i j = none ↔ ¬ m.InRange i j := by
  rw [← get?_isSome_iff, Option.isSome_iff_ne_none, not_not]

theorem exists_get? (m : Mat α) {i j : Int} (h : m.InRange i j) : ∃ a, m.get? i j = some a :=
  Option.isSome_iff_exists.mp ((m.get?_isSome_iff i j).mpr h)

theorem get?_mapIdx (m : Mat α) (f : Int → Int → α → β) (i j : Int) :
    (m.mapIdx f).get? i j = (m.get? i j).map (f i j) := by
  by_cases h : m.InRange i j
  · have h' : (m.mapIdx f).InRange i j := h
    obtain ⟨h1, h2, h3, h4⟩ := id h
    simp only [get?, h, h', if_true]
    simp only [mapIdx, List.getElem?_mapIdx]
    rw [lin_mod h1 h2 h3, lin_div h1 h2 h3]
  · have h' : ¬ (m.mapIdx f).InRange i j := h
    rw [get?_of_not_inRange _ h, get?_of_not_inRange _ h']; rfl

theorem get?_ofFn (r c : Nat) (f : Int → Int → α) (i j : Int) :
    (ofFn r c f).get? i j = if 0 ≤ i ∧ i < r ∧ 0 ≤ j ∧ j < c then some (f i j) else none := by
  by_cases h : 0 ≤ i ∧ i < r ∧ 0 ≤ j ∧ j < c
  · obtain ⟨h1, h2, h3, h4⟩ := id h
    have h' : (ofFn r c f).InRange i j := h
    have hl := lin_lt h1 h2 h3 h4
    simp only [get?, h', h, if_true]
    simp only [ofFn, List.getElem?_map, List.getElem?_range hl, Option.map_some]
    rw [lin_mod h1 h2 h3, lin_div h1 h2 h3]
    simp
  · have h' : ¬ (ofFn r c f).InRange i j := h
    rw [get?_of_not_inRange _ h', if_neg h]

theorem get?_const (r c : Nat) (v : α) (i j : Int) :
    (const r c v).get? i j = if 0 ≤ i ∧ i < r ∧ 0 ≤ j ∧ j < c then some v else none :=
  get?_ofFn r c _ i j

theorem get?_setConstant (m : Mat α) (v : α) (i j : Int) :
    (m.setConstant v).get? i j = (m.get? i j).map fun _ => v := get?_mapIdx m _ i j

theorem get?_set (m : Mat α) (i j : Int) (v : α) (i' j' : Int) :
    (m.set i j v).get? i' j' =
      if i' = i ∧ j' = j then (m.get? i j).map (fun _ => v) else m.get? i' j' := by
  rw [set, get?_mapIdx]
  by_cases h : i' = i ∧ j' = j
  · obtain ⟨rfl, rfl⟩ := h; simp
  · simp only [h, if_false]; simp

@[simp] theorem inRange_mapIdx (m : Mat α) (f : Int → Int → α → β) (i j : Int) :
    (m.mapIdx f).InRange i j ↔ m.InRange i j := Iff.rfl
@[simp] theorem inRange_set (m : Mat α) (a b : Int) (v : α) (i j : Int) :
    (m.set a b v).InRange i j ↔ m.InRange i j := Iff.rfl

/-- Two matrices with the same dimensions and elements are equal. -/
theorem ext' {m n : Mat α} (hr : m.rows = n.rows) (hc : m.cols = n.cols)
    (h : ∀ i j, m.get? i j = n.get? i j) : m = n := by
  obtain ⟨r, c, d, hd⟩ := m
  obtain ⟨r', c', d', hd'⟩ := n
  obtain rfl : r = r' := hr
  obtain rfl : c = c' := hc
  have : d = d' := by
    apply List.ext_getElem?
    intro k
    by_cases hk : k < r * c
    · have hr0 : 0 < r := by
        rcases Nat.eq_zero_or_pos r with h0 | h0
        · subst h0; simp at hk
        · exact h0
      have h1 := Nat.mod_lt k hr0
      have h2 : k / r < c := by
        rw [Nat.div_lt_iff_lt_mul hr0]; rwa [Nat.mul_comm]
      have := h ((k % r : Nat) : Int) ((k / r : Nat) : Int)
      have hin : (0:Int) ≤ ((k % r : Nat) : Int) ∧ ((k % r : Nat) : Int) < r ∧
          (0:Int) ≤ ((k / r : Nat) : Int) ∧ ((k / r : Nat) : Int) < c :=
        ⟨by positivity, by exact_mod_cast h1, by positivity, by exact_mod_cast h2⟩
      have e : (((k / r : Nat) : Int) * r + ((k % r : Nat) : Int)).toNat = k := by
        have : (((k / r : Nat) : Int) * r + ((k % r : Nat) : Int)) = ((k / r * r + k % r : Nat) : Int) := by
          push_cast; ring
        rw [this, Int.toNat_natCast, Nat.mul_comm, Nat.div_add_mod]
      simp only [get?, InRange, hin, and_self, if_true, e] at this
      exact this
    · rw [List.getElem?_eq_none (by omega), List.getElem?_eq_none (by omega)]
  subst this
  rfl

end Mat
end CostMapModel

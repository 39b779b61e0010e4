import Verif.Spec.Iteration
import Verif.Lemmas.Geometry

/-! # Loops over iterators -/

set_option linter.unusedSectionVars false

namespace CostMapModel

/-! ## Row-major enumeration -/

/-- The `k`-th index in row-major order. -/
def rm (size : Idx) (k : Nat) : Idx := ⟨((k / size.y.toNat : Nat) : Int), ((k % size.y.toNat : Nat) : Int)⟩

theorem rowMajor_eq (size : Idx) : rowMajor size = (List.range (size.x.toNat * size.y.toNat)).map (rm size) := rfl

theorem rm_in {size : Idx} {k : Nat} (hk : k < size.x.toNat * size.y.toNat) : (rm size k).In size := by
  have hy : 0 < size.y.toNat := by
    rcases Nat.eq_zero_or_pos size.y.toNat with h | h
    · simp [h] at hk
    · exact h
  have h1 : k / size.y.toNat < size.x.toNat := by rw [Nat.div_lt_iff_lt_mul hy]; exact hk
  have h2 := Nat.mod_lt k hy
  unfold rm Idx.In
  simp only
  generalize k / size.y.toNat = q at *
  generalize k % size.y.toNat = r at *
  omega

theorem rm_surj {size i : Idx} (hi : i.In size) : ∃ k < size.x.toNat * size.y.toNat, rm size k = i := by
  obtain ⟨h1, h2, h3, h4⟩ := hi
  obtain ⟨a, ha⟩ := Int.eq_ofNat_of_zero_le h1
  obtain ⟨b, hb⟩ := Int.eq_ofNat_of_zero_le h3
  have hy : b < size.y.toNat := by omega
  have hx : a < size.x.toNat := by omega
  refine ⟨a * size.y.toNat + b, ?_, ?_⟩
  · calc a * size.y.toNat + b < a * size.y.toNat + size.y.toNat := by omega
      _ = (a + 1) * size.y.toNat := by ring
      _ ≤ size.x.toNat * size.y.toNat := Nat.mul_le_mul_right _ hx
  · have e1 : (a * size.y.toNat + b) / size.y.toNat = a := by
      rw [Nat.add_comm, Nat.add_mul_div_right _ _ (by omega), Nat.div_eq_of_lt hy]; omega
    have e2 : (a * size.y.toNat + b) % size.y.toNat = b := by
      rw [Nat.add_comm, Nat.add_mul_mod_self_right, Nat.mod_eq_of_lt hy]
    ext <;> simp only [rm, e1, e2] <;> omega

theorem rm_inj {size : Idx} {j k : Nat} (h : rm size j = rm size k) : j = k := by
  have h1 := congrArg Idx.x h
  have h2 := congrArg Idx.y h
  simp only [rm] at h1 h2
  have h1' : j / size.y.toNat = k / size.y.toNat := by exact_mod_cast h1
  have h2' : j % size.y.toNat = k % size.y.toNat := by exact_mod_cast h2
  rw [← Nat.div_add_mod j size.y.toNat, ← Nat.div_add_mod k size.y.toNat, h1', h2']

theorem mem_rowMajor {size i : Idx} : i ∈ rowMajor size ↔ i.In size := by
  rw [rowMajor_eq, List.mem_map]
  constructor
  · rintro ⟨k, hk, rfl⟩; exact rm_in (List.mem_range.mp hk)
  · intro hi
    obtain ⟨k, hk, he⟩ := rm_surj hi
    exact ⟨k, List.mem_range.mpr hk, he⟩

theorem rowMajor_nodup (size : Idx) : (rowMajor size).Nodup := by
  rw [rowMajor_eq]
  exact List.Nodup.map (fun _ _ h => rm_inj h) List.nodup_range

theorem rowMajor_length (size : Idx) : (rowMajor size).length = size.x.toNat * size.y.toNat := by
  simp [rowMajor]

/-- The next index in row-major order. -/
def rmNext (i size : Idx) : Idx := if i.y + 1 < size.y then ⟨i.x, i.y + 1⟩ else ⟨i.x + 1, 0⟩

theorem rmNext_rm {size : Idx} {k : Nat} (hk : k < size.x.toNat * size.y.toNat) :
    rmNext (rm size k) size = rm size (k + 1) := by
  have hy : 0 < size.y.toNat := by
    rcases Nat.eq_zero_or_pos size.y.toNat with h | h
    · simp [h] at hk
    · exact h
  have hm := Nat.mod_lt k hy
  have hdm := Nat.div_add_mod k size.y.toNat
  unfold rmNext
  split
  · rename_i h
    simp only [rm] at h
    have h' : k % size.y.toNat + 1 < size.y.toNat := by omega
    have e1 : (k + 1) / size.y.toNat = k / size.y.toNat := by
      have : k + 1 = (k % size.y.toNat + 1) + size.y.toNat * (k / size.y.toNat) := by omega
      rw [this, Nat.add_mul_div_left _ _ hy, Nat.div_eq_of_lt h']; omega
    have e2 : (k + 1) % size.y.toNat = k % size.y.toNat + 1 := by
      have : k + 1 = (k % size.y.toNat + 1) + size.y.toNat * (k / size.y.toNat) := by omega
      rw [this, Nat.add_mul_mod_self_left, Nat.mod_eq_of_lt h']
    ext <;> simp [rm, e1, e2]
  · rename_i h
    simp only [rm] at h
    have h' : k % size.y.toNat + 1 = size.y.toNat := by omega
    have hk1 : k + 1 = size.y.toNat * (k / size.y.toNat + 1) := by
      rw [Nat.mul_add, Nat.mul_one]; omega
    have e1 : (k + 1) / size.y.toNat = k / size.y.toNat + 1 := by
      rw [hk1, Nat.mul_div_cancel_left _ hy]
    have e2 : (k + 1) % size.y.toNat = 0 := by rw [hk1, Nat.mul_mod_right]
    ext <;> simp [rm, e1, e2]

theorem rm_not_in {size : Idx} (hx : 0 < size.x) (hy : 0 < size.y) :
    ¬ (rm size (size.x.toNat * size.y.toNat)).In size := by
  intro h
  have := h.2.1
  simp only [rm] at this
  rw [Nat.mul_div_cancel _ (by omega)] at this
  omega

/-! ## Loops -/

/-- A chain of states visits the values of the chain. -/
theorem visits_chain {σ β : Type} (I : IterOps σ β) (n : Nat) (s : Nat → σ) (f : Nat → β)
    (hp : ∀ k < n, I.isPastEnd (s k) = false) (hd : ∀ k < n, I.deref (s k) = .ok (f k))
    (hn : ∀ k < n, I.next (s k) = .ok (s (k + 1))) (he : I.isPastEnd (s n) = true) :
    Visits I (s 0) ((List.range n).map f) := by
  have key : ∀ d k, k + d = n → Visits I (s k) ((List.range' k d).map f) := by
    intro d
    induction d with
    | zero => intro k hk; simp at hk; subst hk; exact .done he
    | succ d ih =>
      intro k hk
      rw [List.range'_succ, List.map_cons]
      exact .step (hp k (by omega)) (hd k (by omega)) (hn k (by omega)) (ih (k + 1) (by omega))
  rw [List.range_eq_range']
  exact key n 0 (by omega)

/-- The values a loop sees are determined. -/
theorem Visits.unique {σ β : Type} {I : IterOps σ β} {s : σ} {xs ys : List β} (h : Visits I s xs)
    (h' : Visits I s ys) : xs = ys := by
  induction h generalizing ys with
  | done hp =>
    cases h' with
    | done _ => rfl
    | step hp' => rw [hp] at hp'; cases hp'
  | step hp hd hn _ ih =>
    cases h' with
    | done hp' => rw [hp] at hp'; cases hp'
    | step _ hd' hn' hv' =>
      rw [hd] at hd'; rw [hn] at hn'
      cases hd'; cases hn'
      rw [ih hv']

/-! ## CostMapIterator -/

theorem costMapIter_visits {K : Type} {m : CostMap K} (hs : m.startIndex.In m.size)
    (bnd : Int → Int → Int) :
    Visits CostMapIter.ops (CostMapIter.newWith bnd m)
      ((rowMajor m.size).map fun u => bufferIdx u m.size m.startIndex) := by
  have hx : 0 < m.size.x := by obtain ⟨a, b, c, d⟩ := hs; omega
  have hy : 0 < m.size.y := by obtain ⟨a, b, c, d⟩ := hs; omega
  set n := m.size.x.toNat * m.size.y.toNat with hn
  have hnpos : 0 < n := Nat.mul_pos (by omega) (by omega)
  set it0 := CostMapIter.newWith bnd m with hit0
  rw [rowMajor_eq, List.map_map]
  let st : Nat → CostMapIter := fun k =>
    if k < n then { it0 with index := bufferIdx (rm m.size k) m.size m.startIndex }
    else { it0 with index := bufferIdx (rm m.size (n - 1)) m.size m.startIndex, pastEnd := true }
  have h0 : st 0 = it0 := by
    simp only [st, hnpos, if_true]
    have : rm m.size 0 = 0 := by ext <;> simp [rm]
    rw [this]
    have h2 : bufferIdx 0 m.size m.startIndex = m.startIndex := by
      rw [bufferIdx_eq ⟨le_refl _, hx, le_refl _, hy⟩ hs]
      obtain ⟨a, b, c, d⟩ := hs
      ext <;> simp only [buf, Idx.zero_x, Idx.zero_y] <;> split <;> omega
    rw [h2]
    rfl
  rw [← h0]
  refine visits_chain CostMapIter.ops n st _ ?_ ?_ ?_ ?_
  · intro k hk; simp only [st, hk, if_true]; rfl
  · intro k hk; simp only [st, hk, if_true]; rfl
  · intro k hk
    have hki : (rm m.size k).In m.size := rm_in hk
    have hinc : ∀ it : CostMapIter, it.size = m.size → it.startIndex = m.startIndex →
        it.index = bufferIdx (rm m.size k) m.size m.startIndex →
        incrementIndex it.index it.size it.startIndex =
          if inRange (rm m.size (k + 1)) m.size then some (bufferIdx (rm m.size (k + 1)) m.size m.startIndex)
          else none := by
      intro it h1 h2 h3
      rw [h1, h2, h3]
      unfold incrementIndex
      rw [unwrap_buffer hki hs, ← rmNext_rm hk]
      rfl
    simp only [CostMapIter.ops, CostMapIter.next]
    rw [hinc (st k) (by simp [st, hk, hit0, CostMapIter.newWith]) (by simp [st, hk, hit0, CostMapIter.newWith])
      (by simp [st, hk])]
    by_cases hk1 : k + 1 < n
    · rw [if_pos (inRange_iff.mpr (rm_in hk1))]
      simp only [st, hk, hk1, if_true]
      rfl
    · have : k + 1 = n := by omega
      rw [if_neg (by rw [inRange_iff, this]; exact rm_not_in hx hy)]
      simp only [st, hk, hk1, if_true, if_false]
      have : n - 1 = k := by omega
      rw [this]
  · simp [st, CostMapIter.ops]

/-! ## SubmapIterator -/

theorem submapIter_visits {K : Type} {m : CostMap K} (hs : m.startIndex.In m.size) {tl sz : Idx}
    (htl : tl.In m.size) (hx : 0 < sz.x) (hy : 0 < sz.y) :
    Visits SubmapIter.opsBoth (SubmapIter.new m tl sz)
      ((rowMajor sz).map fun u => (bufferIdx (unwrapIdx tl m.size m.startIndex + u) m.size m.startIndex, u)) := by
  set n := sz.x.toNat * sz.y.toNat with hn
  have hnpos : 0 < n := Nat.mul_pos (by omega) (by omega)
  set it0 := SubmapIter.new m tl sz with hit0
  rw [rowMajor_eq, List.map_map]
  let st : Nat → SubmapIter := fun k =>
    if k < n then { it0 with index := bufferIdx (unwrapIdx tl m.size m.startIndex + rm sz k) m.size m.startIndex,
                             submapIndex := rm sz k }
    else { it0 with index := bufferIdx (unwrapIdx tl m.size m.startIndex + rm sz (n - 1)) m.size m.startIndex,
                    submapIndex := rm sz (n - 1), pastEnd := true }
  have h0 : st 0 = it0 := by
    simp only [st, hnpos, if_true]
    have : rm sz 0 = 0 := by ext <;> simp [rm]
    rw [this]
    have h1 : unwrapIdx tl m.size m.startIndex + 0 = unwrapIdx tl m.size m.startIndex := by ext <;> simp
    rw [h1, buffer_unwrap htl hs]
    rfl
  rw [← h0]
  refine visits_chain SubmapIter.opsBoth n st _ ?_ ?_ ?_ ?_
  · intro k hk; simp only [st, hk, if_true]; rfl
  · intro k hk; simp only [st, hk, if_true]; rfl
  · intro k hk
    simp only [SubmapIter.opsBoth, SubmapIter.next, incrementIndexForSubmap]
    have e : ∀ it : SubmapIter, it.submapIndex = rm sz k → it.submapSize = sz →
        (if it.submapIndex.y + 1 < it.submapSize.y then (⟨it.submapIndex.x, it.submapIndex.y + 1⟩ : Idx)
          else ⟨it.submapIndex.x + 1, 0⟩) = rm sz (k + 1) := by
      intro it h1 h2
      rw [h1, h2, ← rmNext_rm hk]; rfl
    rw [e (st k) (by simp [st, hk]) (by simp [st, hk, hit0, SubmapIter.new])]
    by_cases hk1 : k + 1 < n
    · have hr : inRange (rm sz (k + 1)) (st k).submapSize = true := by
        simp only [st, hk, if_true]; exact inRange_iff.mpr (rm_in hk1)
      simp only [hr, if_true]
      simp only [st, hk, hk1, if_true]
      rfl
    · have hk2 : k + 1 = n := by omega
      have hr : ¬ inRange (rm sz (k + 1)) (st k).submapSize = true := by
        simp only [st, hk, if_true, hk2]
        rw [inRange_iff]; exact rm_not_in hx hy
      simp only [hr]
      simp only [st, hk, hk1, if_true, if_false]
      have : n - 1 = k := by omega
      rw [this]
      rfl
  · simp [st, SubmapIter.opsBoth]

/-- A loop that also looks at the submap index sees the same indices. -/
theorem submapIter_visits_fst {s : SubmapIter} {xs : List (Idx × Idx)} (h : Visits SubmapIter.opsBoth s xs) :
    Visits SubmapIter.ops s (xs.map Prod.fst) := by
  induction h with
  | done hp => exact .done hp
  | step hp hd hn _ ih =>
    simp only [SubmapIter.opsBoth] at hp hd hn
    cases hd; cases hn
    exact .step hp rfl rfl ih

/-- A submap without cells in some axis: the iterator still visits its start index. -/
theorem submapIter_visits_empty {K : Type} (m : CostMap K) (tl sz : Idx) (h : ¬ (0 < sz.x ∧ 0 < sz.y)) :
    Visits SubmapIter.ops (SubmapIter.new m tl sz) [tl] := by
  have hnone : incrementIndexForSubmap 0 tl sz m.size m.startIndex = none := by
    unfold incrementIndexForSubmap
    have : inRange (if (0 : Idx).y + 1 < sz.y then (⟨(0 : Idx).x, (0 : Idx).y + 1⟩ : Idx)
        else ⟨(0 : Idx).x + 1, 0⟩) sz = false := by
      rw [Bool.eq_false_iff, Ne, inRange_iff]
      intro hi
      obtain ⟨h1, h2, h3, h4⟩ := hi
      by_cases hc : (0 : Idx).y + 1 < sz.y
      · rw [if_pos hc] at h2; simp only [Idx.zero_x, Idx.zero_y] at h2 hc; exact h ⟨by omega, by omega⟩
      · rw [if_neg hc] at h2 h4
        simp only [Idx.zero_x, Idx.zero_y] at h2 h4 hc
        exact h ⟨by omega, by omega⟩
    simp only [this]
    rfl
  have hnext : (SubmapIter.new m tl sz).next = { SubmapIter.new m tl sz with pastEnd := true } := by
    unfold SubmapIter.next
    have : incrementIndexForSubmap (SubmapIter.new m tl sz).submapIndex (SubmapIter.new m tl sz).submapStartIndex
        (SubmapIter.new m tl sz).submapSize (SubmapIter.new m tl sz).size
        (SubmapIter.new m tl sz).startIndex = none := hnone
    rw [this]
  refine .step rfl rfl rfl (.done ?_)
  simp only [SubmapIter.ops, hnext]

end CostMapModel

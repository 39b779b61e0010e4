import Verif.Lemmas.Iteration

/-! # Circle, ellipse and polygon iterators -/

set_option linter.unusedSectionVars false

namespace CostMapModel

theorem Visits.nil_iff {σ β : Type} {I : IterOps σ β} {s : σ} {xs : List β} (h : Visits I s xs) :
    I.isPastEnd s = true ↔ xs = [] := by
  cases h with
  | done hp => simp [hp]
  | step hp => simp [hp]

theorem SubmapIter.next_submapSize (s : SubmapIter) : s.next.submapSize = s.submapSize := by
  unfold SubmapIter.next; split <;> rfl

namespace ShapeIter
variable {K : Type} [Field K] [LinearOrder K] [IsStrictOrderedRing K] [FloorRing K]

theorem skip_spec (it : ShapeIter K) (P : Idx → Bool) {s : SubmapIter} {xs : List Idx}
    (hv : Visits SubmapIter.ops s xs) :
    (∀ s : SubmapIter, s.index ∈ xs → it.isInside s = .ok (P s.index)) → ∀ n, xs.length < n →
    ∃ s', it.skip n s = .ok s' ∧ s'.submapSize = s.submapSize ∧
      Visits SubmapIter.ops s' (xs.dropWhile fun x => !P x) := by
  induction hv with
  | @done s hp =>
    intro _ n hn
    obtain ⟨n, rfl⟩ : ∃ k, n = k + 1 := ⟨n - 1, by simp at hn; omega⟩
    have hp' : s.pastEnd = true := hp
    exact ⟨s, by simp [skip, hp'], rfl, .done hp⟩
  | @step s s1 x xs hp hd hn hv ih =>
    intro hP n hlen
    obtain ⟨n, rfl⟩ : ∃ k, n = k + 1 := ⟨n - 1, by simp at hlen; omega⟩
    have hp' : s.pastEnd = false := hp
    simp only [SubmapIter.ops, Res.ok.injEq] at hd hn
    subst hn
    have hin := hP s (by simp [hd])
    rw [hd] at hin
    cases hb : P x with
    | true =>
      refine ⟨s, by simp [skip, hp', hin, hb], rfl, ?_⟩
      rw [List.dropWhile_cons_of_neg (by simp [hb])]
      exact .step hp (by simp [SubmapIter.ops, hd]) rfl hv
    | false =>
      obtain ⟨s', h1, h2, h3⟩ := ih (fun s hs => hP s (by simp [hs])) n (by simp at hlen; omega)
      refine ⟨s', by simp [skip, hp', hin, hb, h1], by rw [h2, SubmapIter.next_submapSize], ?_⟩
      rw [List.dropWhile_cons_of_pos (by simp [hb])]
      exact h3

theorem dropWhile_filter (P : Idx → Bool) (xs : List Idx) :
    (xs.dropWhile fun x => !P x).filter P = xs.filter P := by
  induction xs with
  | nil => rfl
  | cons x xs ih =>
    cases h : P x with
    | true => rw [List.dropWhile_cons_of_neg (by simp [h])]
    | false => rw [List.dropWhile_cons_of_pos (by simp [h]), ih]; simp [h]

theorem dropWhile_head (P : Idx → Bool) (xs : List Idx) :
    ∀ x ys, (xs.dropWhile fun x => !P x) = x :: ys → P x = true := by
  induction xs with
  | nil => intro x ys h; cases h
  | cons y xs ih =>
    intro x ys h
    cases hb : P y with
    | true =>
      rw [List.dropWhile_cons_of_neg (by simp [hb])] at h
      cases h; exact hb
    | false =>
      rw [List.dropWhile_cons_of_pos (by simp [hb])] at h
      exact ih x ys h

theorem next_spec (it : ShapeIter K) (P : Idx → Bool) {x : Idx} {xs : List Idx}
    (hv : Visits SubmapIter.ops it.internal (x :: xs))
    (hP : ∀ s : SubmapIter, s.index ∈ xs → it.isInside s = .ok (P s.index))
    (hf : xs.length < it.fuel) :
    ∃ s', it.next = .ok { it with internal := s' } ∧ s'.submapSize = it.internal.submapSize ∧
      Visits SubmapIter.ops s' (xs.dropWhile fun x => !P x) := by
  cases hv with
  | step hp hd hn hv =>
    simp only [SubmapIter.ops, Res.ok.injEq] at hd hn
    subst hn
    by_cases hpe : it.internal.next.pastEnd = true
    · have : xs = [] := hv.nil_iff.mp hpe
      subst this
      exact ⟨_, by simp [next, hpe], SubmapIter.next_submapSize _, hv⟩
    · obtain ⟨s', h1, h2, h3⟩ := skip_spec it P hv hP it.fuel hf
      exact ⟨s', by simp [next, hpe, h1], by rw [h2, SubmapIter.next_submapSize], h3⟩

theorem filter_visits (P : Idx → Bool) : ∀ (n : Nat) (it : ShapeIter K) (xs : List Idx), xs.length ≤ n →
    Visits SubmapIter.ops it.internal xs →
    (∀ s : SubmapIter, s.index ∈ xs → it.isInside s = .ok (P s.index)) →
    (∀ x ys, xs = x :: ys → P x = true) → xs.length ≤ it.fuel →
    Visits ShapeIter.ops it (xs.filter P) := by
  intro n
  induction n with
  | zero =>
    intro it xs hlen hv _ _ _
    have : xs = [] := by simpa using hlen
    subst this
    exact .done (hv.nil_iff.mpr rfl)
  | succ n ih =>
    intro it xs hlen hv hP hhd hf
    cases xs with
    | nil => exact .done (hv.nil_iff.mpr rfl)
    | cons x xs =>
      have hx := hhd x xs rfl
      obtain ⟨s', h1, h2, h3⟩ := next_spec it P hv (fun s hs => hP s (by simp [hs]))
        (by simp at hf; omega)
      have hsub : ∀ y ∈ xs.dropWhile (fun x => !P x), y ∈ xs := fun y hy =>
        (List.dropWhile_suffix _).subset hy
      have hle : (xs.dropWhile fun x => !P x).length ≤ xs.length := (List.dropWhile_suffix _).length_le
      have hd : it.internal.index = x := by
        cases hv with
        | step _ hd _ _ => simpa [SubmapIter.ops] using hd
      have hp : it.internal.pastEnd = false := by
        cases hv with
        | step hp _ _ _ => exact hp
      rw [List.filter_cons_of_pos hx]
      refine .step hp (by simp [ops, hd]) h1 ?_
      rw [← dropWhile_filter]
      refine ih { it with internal := s' } _ ?_ h3 ?_ (dropWhile_head P xs) ?_
      · simp at hlen; omega
      · intro s hs
        exact hP s (by simp [hsub _ hs])
      · have : fuel { it with internal := s' } = it.fuel := by simp [fuel, h2]
        rw [this]
        simp at hf; omega

/-- The iterator the constructors of circle, ellipse and polygon return visits the cells of the bounding box
that are inside the shape, in the order of the bounding box. -/
theorem newWith_visits (m : CostMap K) (shape : Vec K → Bool) (tl sz : Idx) (P : Idx → Bool) {xs : List Idx}
    (hv : Visits SubmapIter.ops (SubmapIter.new m tl sz) xs) (hlen : xs.length ≤ sz.x.toNat * sz.y.toNat + 2)
    (hP : ∀ i ∈ xs, ∃ p, m.getPosition i = some p ∧ P i = shape p) :
    ∃ it, newWith m shape tl sz = .ok it ∧ Visits ShapeIter.ops it (xs.filter P) := by
  set it0 : ShapeIter K :=
    ⟨m.length, m.position, m.resolution, m.size, m.startIndex, shape, SubmapIter.new m tl sz⟩ with hit0
  have hins : ∀ it : ShapeIter K, it.length = m.length → it.position = m.position →
      it.resolution = m.resolution → it.size = m.size → it.startIndex = m.startIndex → it.shape = shape →
      ∀ s : SubmapIter, s.index ∈ xs → it.isInside s = .ok (P s.index) := by
    intro it h1 h2 h3 h4 h5 h6 s hs
    obtain ⟨p, hp, hpp⟩ := hP s.index hs
    simp only [isInside, h1, h2, h3, h4, h5, h6]
    have : positionFromIndex s.index m.length m.position m.resolution m.size m.startIndex = some p := hp
    rw [this, hpp]
  have hins0 := hins it0 rfl rfl rfl rfl rfl rfl
  have hfuel : it0.fuel = sz.x.toNat * sz.y.toNat + 2 := rfl
  cases xs with
  | nil =>
    have := hv.nil_iff.mpr rfl
    simp [SubmapIter.ops, SubmapIter.new] at this
  | cons x xs =>
    have hx : it0.internal.index = x := by
      cases hv with
      | step _ hd _ _ => simpa [SubmapIter.ops] using hd
    have hb := hins0 it0.internal (by simp [hx])
    rw [hx] at hb
    cases hPx : P x with
    | true =>
      refine ⟨it0, ?_, ?_⟩
      · show (it0.isInside it0.internal).bind _ = _
        rw [hb, hPx]; rfl
      · refine filter_visits P _ it0 (x :: xs) (le_refl _) hv hins0 ?_ (by rw [hfuel]; exact hlen)
        rintro y ys ⟨⟩; exact hPx
    | false =>
      obtain ⟨s', h1, h2, h3⟩ := next_spec it0 P hv (fun s hs => hins0 s (by simp [hs]))
        (by rw [hfuel]; simp at hlen; omega)
      refine ⟨{ it0 with internal := s' }, ?_, ?_⟩
      · show (it0.isInside it0.internal).bind _ = _
        rw [hb, hPx]
        exact h1
      · rw [List.filter_cons_of_neg (by simp [hPx]), ← dropWhile_filter]
        refine filter_visits P _ _ _ (le_refl _) h3 ?_ (dropWhile_head P xs) ?_
        · intro s hs
          exact hins _ rfl rfl rfl rfl rfl rfl s (by
            have := (List.dropWhile_suffix (fun x => !P x)).subset hs
            simp [this])
        · have e : fuel { it0 with internal := s' } = it0.fuel := by simp [fuel, h2]
          have := (List.dropWhile_suffix (l := xs) (fun x => !P x)).length_le
          rw [e, hfuel]
          simp at hlen; omega

end ShapeIter
end CostMapModel

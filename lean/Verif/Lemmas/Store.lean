import Verif.Lemmas.Mat
import Verif.Spec.Geometry

/-! # The layer store: preservation of coherence and of everything a call does not touch -/

set_option linter.unusedSectionVars false

namespace CostMapModel

/-- An action keeps an invariant, whatever its outcome. -/
def Act.Keeps {σ α : Type} (P : σ → Prop) (f : Act σ α) : Prop := ∀ s, P s → P (f s).2

namespace Act
variable {σ α β : Type} {P : σ → Prop}

theorem Keeps.pure (a : α) : Keeps P (Act.pure a : Act σ α) := fun _ h => h

theorem Keeps.bind {f : Act σ α} {g : α → Act σ β} (hf : Keeps P f) (hg : ∀ a, Keeps P (g a)) :
    Keeps P (Act.bind f g) := by
  intro s hs
  have h1 := hf s hs
  unfold Act.bind
  split <;> rename_i h <;> rw [h] at h1
  · exact hg _ _ h1
  all_goals exact h1

theorem Keeps.forEach {f : α → Act σ Unit} (hf : ∀ a, Keeps P (f a)) (l : List α) :
    Keeps P (Act.forEach f l) := by
  induction l with
  | nil => exact Keeps.pure ()
  | cons a l ih => exact (hf a).bind fun _ => ih

theorem Keeps.of_fst {f g : Act σ α} (h : Keeps P f) (e : ∀ s, g s = f s) : Keeps P g := by
  intro s hs; rw [e]; exact h s hs

end Act

namespace CostMap
variable {K : Type} [Field K] [LinearOrder K] [IsStrictOrderedRing K] [FloorRing K]

/-- Two maps that differ only in the contents (not the dimensions) of their stored matrices. -/
structure SameShape (m m' : CostMap K) : Prop where
  geo : SameGeometry m m'
  info : SameMeta m m'
  layers : m'.layers = m.layers
  dims : ∀ l, (m'.data l).map (fun a => (a.rows, a.cols)) = (m.data l).map (fun a => (a.rows, a.cols))

theorem SameShape.refl (m : CostMap K) : SameShape m m :=
  ⟨⟨rfl, rfl, rfl, rfl, rfl⟩, ⟨rfl, rfl, rfl⟩, rfl, fun _ => rfl⟩

theorem SameShape.trans {a b c : CostMap K} (h : SameShape a b) (h' : SameShape b c) : SameShape a c :=
  ⟨⟨h'.geo.length.trans h.geo.length, h'.geo.resolution.trans h.geo.resolution,
    h'.geo.position.trans h.geo.position, h'.geo.size.trans h.geo.size,
    h'.geo.startIndex.trans h.geo.startIndex⟩,
   ⟨h'.info.frameId.trans h.info.frameId, h'.info.timestamp.trans h.info.timestamp,
    h'.info.basicLayers.trans h.info.basicLayers⟩,
   h'.layers.trans h.layers, fun l => (h'.dims l).trans (h.dims l)⟩

theorem SameShape.isSome {m m' : CostMap K} (h : SameShape m m') (l : String) :
    (m'.data l).isSome = (m.data l).isSome := by
  have := congrArg Option.isSome (h.dims l)
  simpa using this

theorem SameShape.coherent {m m' : CostMap K} (h : SameShape m m') (hc : m.Coherent) : m'.Coherent where
  nodup := by rw [h.layers]; exact hc.nodup
  mem_iff l := by rw [h.layers, h.isSome]; exact hc.mem_iff l
  dims l a ha := by
    have hd := h.dims l
    rw [ha] at hd
    simp only [Option.map_some] at hd
    obtain ⟨b, hb, hb'⟩ := Option.map_eq_some_iff.mp hd.symm
    have := hc.dims l b hb
    simp only [Prod.mk.injEq] at hb'
    rw [h.geo.size, ← hb'.1, ← hb'.2]; exact this

theorem SameShape.geo' {m m' : CostMap K} (h : SameShape m m') (hg : m.Geo) : m'.Geo where
  res_pos := by rw [h.geo.resolution]; exact hg.res_pos
  size_x := by rw [h.geo.size]; exact hg.size_x
  size_y := by rw [h.geo.size]; exact hg.size_y
  len_x := by rw [h.geo.length, h.geo.size, h.geo.resolution]; exact hg.len_x
  len_y := by rw [h.geo.length, h.geo.size, h.geo.resolution]; exact hg.len_y
  start := by rw [h.geo.startIndex, h.geo.size]; exact hg.start

/-- Replacing a stored matrix by one of the same dimensions keeps the shape. -/
theorem SameShape.setData {m : CostMap K} {l : String} {a b : Mat Cost} (ha : m.data l = some a)
    (hr : b.rows = a.rows) (hc : b.cols = a.cols) : SameShape m (m.setData l b) := by
  refine ⟨⟨rfl, rfl, rfl, rfl, rfl⟩, ⟨rfl, rfl, rfl⟩, rfl, fun l' => ?_⟩
  simp only [CostMap.setData]
  split
  · subst l'; simp [ha, hr, hc]
  · rfl

theorem SameShape.clearAll (m : CostMap K) : SameShape m m.clearAll := by
  refine ⟨⟨rfl, rfl, rfl, rfl, rfl⟩, ⟨rfl, rfl, rfl⟩, rfl, fun l' => ?_⟩
  simp only [CostMap.clearAll, Option.map_map]
  rfl

/-- An action that never changes the shape. -/
abbrev KeepsShape {α : Type} (f : Act (CostMap K) α) : Prop := ∀ m, SameShape m (f m).2

theorem KeepsShape.bind {α β : Type} {f : Act (CostMap K) α} {g : α → Act (CostMap K) β}
    (hf : KeepsShape f) (hg : ∀ a, KeepsShape (g a)) : KeepsShape (Act.bind f g) := by
  intro m
  have := Act.Keeps.bind (P := fun m' => SameShape m m') (f := f) (g := g)
    (fun s hs => hs.trans (hf s)) (fun a s hs => hs.trans (hg a s))
  exact this m (SameShape.refl m)

theorem KeepsShape.pure {α : Type} (a : α) : KeepsShape (Act.pure a : Act (CostMap K) α) :=
  fun m => SameShape.refl m

theorem KeepsShape.forEach {α : Type} {f : α → Act (CostMap K) Unit} (hf : ∀ a, KeepsShape (f a))
    (l : List α) : KeepsShape (Act.forEach f l) := by
  induction l with
  | nil => exact KeepsShape.pure ()
  | cons a l ih => exact KeepsShape.bind (hf a) fun _ => ih

theorem setAt_shape (l : String) (i : Idx) (v : Cost) : KeepsShape (setAt (K := K) l i v) := by
  intro m
  unfold setAt
  split
  · exact SameShape.refl m
  · rename_i a ha
    split
    · exact SameShape.setData ha rfl rfl
    · exact SameShape.refl m

theorem setAtPosition_shape (l : String) (p : Vec K) (v : Cost) : KeepsShape (setAtPosition l p v) := by
  intro m
  unfold setAtPosition
  simp only
  split
  · exact setAt_shape l _ v m
  · exact SameShape.refl m

theorem clear_shape (l : String) : KeepsShape (clear (K := K) l) := by
  intro m
  unfold clear
  split
  · exact SameShape.refl m
  · rename_i a ha
    exact SameShape.setData ha rfl rfl

theorem clearBasic_shape : KeepsShape (clearBasic (K := K)) := fun m =>
  KeepsShape.forEach clear_shape m.basicLayers m

theorem setBlockConstant_dims {a b : Mat Cost} {i j r c : Int} {v : Cost}
    (h : setBlockConstant a i j r c v = some b) : b.rows = a.rows ∧ b.cols = a.cols := by
  unfold setBlockConstant at h
  split at h
  · cases h; exact ⟨rfl, rfl⟩
  · cases h

theorem clearBlock_shape (i j r c : Int) (l : String) : KeepsShape (clearBlock (K := K) i j r c l) := by
  intro m
  unfold clearBlock
  split
  · exact SameShape.refl m
  · rename_i a ha
    split
    · exact SameShape.refl m
    · rename_i b hb
      have := setBlockConstant_dims hb
      exact SameShape.setData ha this.1 this.2

theorem clearRows_shape (i n : Int) : KeepsShape (clearRows (K := K) i n) := fun m =>
  KeepsShape.forEach (clearBlock_shape i 0 n m.size.y) m.layersToClear m

theorem clearCols_shape (i n : Int) : KeepsShape (clearCols (K := K) i n) := fun m =>
  KeepsShape.forEach (clearBlock_shape 0 i m.size.x n) m.layersToClear m

theorem clearStrip_shape (ax : Fin 2) (i n : Int) : KeepsShape (clearStrip (K := K) ax i n) := by
  unfold clearStrip
  split
  · exact clearRows_shape i n
  · exact clearCols_shape i n

theorem dropAxis_shape (bnd : Int → Int → Int) (sh : Idx) (ax : Fin 2) :
    KeepsShape (dropAxis (K := K) bnd sh ax) := by
  intro m
  unfold dropAxis
  extract_lets sh sz sign start stop n idx f1 f2
  split
  · split
    · exact SameShape.clearAll m
    · split
      · exact KeepsShape.bind (clearStrip_shape _ _ _) (fun _ => KeepsShape.pure _) m
      · exact KeepsShape.bind (clearStrip_shape _ _ _)
          (fun _ => KeepsShape.bind (clearStrip_shape _ _ _) (fun _ => KeepsShape.pure _)) m
  · exact SameShape.refl m

/-! ## Coherence of each mutator -/

theorem new_coherent {ls : List String} (h : ls.Nodup) : (new ls : CostMap K).Coherent where
  nodup := h
  mem_iff l := by simp only [new]; split <;> simp_all
  dims l a ha := by
    simp only [new] at ha ⊢
    split at ha
    · cases ha; simp
    · cases ha

theorem size_nonneg_of_round {x : K} (h : 0 ≤ x) : 0 ≤ roundHalfAway x := by
  simp only [roundHalfAway, h, if_true]
  exact Int.floor_nonneg.mpr (by linarith [show (0:K) < 1/2 by norm_num])

theorem setGeometry_coherent (len : Vec K) (r : K) (p : Vec K) :
    Act.Keeps CostMap.Coherent (setGeometry len r p) := by
  intro m hc
  unfold setGeometry
  split
  · exact hc
  split
  · exact hc
  split
  · exact hc
  rename_i h1 h2 h3
  simp only [not_not] at h1 h2 h3
  have hx := size_nonneg_of_round (div_nonneg h1.le h3.le)
  have hy := size_nonneg_of_round (div_nonneg h2.le h3.le)
  refine ⟨hc.nodup, fun l => ?_, fun l a ha => ?_⟩
  · simp only [resize, clearAll, Option.map_map]
    rw [Option.isSome_map]; exact hc.mem_iff l
  · simp only [resize, clearAll, Option.map_map] at ha ⊢
    obtain ⟨b, -, rfl⟩ := Option.map_eq_some_iff.mp ha
    simp only [Function.comp, Mat.rows_setConstant, Mat.cols_setConstant, Mat.rows_const, Mat.cols_const]
    omega

theorem add_coherent (l : String) (a : Mat Cost) : Act.Keeps (CostMap.Coherent (K := K)) (add l a) := by
  intro m hc
  unfold add
  split
  · exact hc
  split
  · exact hc
  rename_i h1 h2
  simp only [ne_eq, not_not] at h1 h2
  split
  · rename_i he
    have he : (m.data l).isSome := he
    refine ⟨hc.nodup, fun l' => ?_, fun l' b hb => ?_⟩
    · simp only [setData]
      split
      · subst l'; rw [hc.mem_iff]; simp [he]
      · exact hc.mem_iff l'
    · simp only [setData] at hb ⊢
      split at hb
      · cases hb; exact ⟨h1.symm, h2.symm⟩
      · exact hc.dims _ _ hb
  · rename_i he
    have he : ¬ (m.data l).isSome := he
    refine ⟨?_, fun l' => ?_, fun l' b hb => ?_⟩
    · simp only
      rw [List.nodup_append]
      refine ⟨hc.nodup, by simp, ?_⟩
      intro x hx y hy hxy
      simp only [List.mem_singleton] at hy
      subst hy; subst hxy
      exact he ((hc.mem_iff _).mp hx)
    · simp only [setData, List.mem_append, List.mem_singleton]
      split
      · subst l'; simp
      · rw [hc.mem_iff]; simp [*]
    · simp only [setData] at hb ⊢
      split at hb
      · cases hb; exact ⟨h1.symm, h2.symm⟩
      · exact hc.dims _ _ hb

theorem addConst_coherent (l : String) (v : Cost) :
    Act.Keeps (CostMap.Coherent (K := K)) (addConst l v) := fun m hc => add_coherent l _ m hc

theorem eraseFirst_eq (l : String) (ls : List String) : eraseFirst l ls = ls.erase l := by
  induction ls with
  | nil => rfl
  | cons a as ih =>
    simp only [eraseFirst]
    split
    · subst a; simp
    · rename_i h
      rw [List.erase_cons_tail (by simpa using h), ih]

theorem erase_coherent (l : String) : Act.Keeps (CostMap.Coherent (K := K)) (erase l) := by
  intro m hc
  unfold erase
  split
  · exact hc
  rename_i h1
  have hl : l ∈ m.layers := by
    rw [hc.mem_iff]
    cases h : m.data l <;> simp_all
  simp only [hl, not_true, if_false]
  have key : ∀ b : List String, CostMap.Coherent
      { m with data := fun l' => if l' = l then none else m.data l',
               layers := eraseFirst l m.layers, basicLayers := b } := by
    intro b
    refine ⟨?_, fun l' => ?_, fun l' b hb => ?_⟩
    · simp only [eraseFirst_eq]; exact hc.nodup.erase l
    · simp only [eraseFirst_eq]
      rw [hc.nodup.mem_erase_iff, hc.mem_iff]
      split <;> simp_all
    · simp only at hb
      split at hb
      · cases hb
      · exact hc.dims _ _ hb
  split
  · exact key _
  · exact key _

theorem moveWith_coherent (bnd : Int → Int → Int) (p : Vec K) :
    Act.Keeps (CostMap.Coherent (K := K)) (moveWith bnd p) := by
  intro m hc
  refine Act.Keeps.bind (P := CostMap.Coherent) (fun s hs => (dropAxis_shape _ _ _ s).coherent hs) ?_ m hc
  intro _
  refine Act.Keeps.bind (P := CostMap.Coherent) (fun s hs => (dropAxis_shape _ _ _ s).coherent hs) ?_
  intro _ s hs
  exact ⟨hs.nodup, hs.mem_iff, hs.dims⟩

end CostMap
end CostMapModel

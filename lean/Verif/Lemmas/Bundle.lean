import Verif.Model.Bundle
import Verif.Lemmas.Image
import Verif.Lemmas.Occupancy
import Mathlib.Data.String.Basic

/-!
# Lemmas on image bundles
-/

set_option linter.unusedSectionVars false

namespace CostMapModel
open CostMap
variable {K : Type} [Field K] [LinearOrder K] [IsStrictOrderedRing K] [FloorRing K]

/-! ## The layer table -/

theorem mapInsert_perm {k v : String} : ∀ {ps : List (String × String)}, k ∉ ps.map Prod.fst →
    (mapInsert k v ps).Perm ((k, v) :: ps)
  | [], _ => .refl _
  | (k', v') :: ps, h => by
    simp only [List.map_cons, List.mem_cons, not_or] at h
    unfold mapInsert
    split
    · exact .refl _
    · rw [if_neg h.1]
      exact ((mapInsert_perm h.2).cons _).trans (.swap _ _ _)

theorem mapInsert_sorted {k v : String} : ∀ {ps : List (String × String)}, ps.Pairwise (fun p q => p.1 < q.1) →
    (mapInsert k v ps).Pairwise (fun p q => p.1 < q.1) ∧ ∀ q ∈ mapInsert k v ps, q.1 = k ∨ q ∈ ps
  | [], _ => ⟨List.pairwise_singleton _ _, fun q hq => by
      simp only [mapInsert, List.mem_singleton] at hq; exact .inl (by rw [hq])⟩
  | (k', v') :: ps, h => by
    unfold mapInsert
    rw [List.pairwise_cons] at h
    split
    · rename_i hlt
      refine ⟨?_, fun q hq => ?_⟩
      · rw [List.pairwise_cons, List.pairwise_cons]
        refine ⟨fun q hq => ?_, h⟩
        rcases List.mem_cons.1 hq with rfl | hq
        · exact hlt
        · exact lt_trans hlt (h.1 q hq)
      · rcases List.mem_cons.1 hq with rfl | hq
        · exact .inl rfl
        · exact .inr hq
    · rename_i hlt
      split
      · exact ⟨List.pairwise_cons.2 h, fun q hq => .inr hq⟩
      · rename_i hne
        obtain ⟨s1, s2⟩ := mapInsert_sorted (k := k) (v := v) h.2
        refine ⟨List.pairwise_cons.2 ⟨fun q hq => ?_, s1⟩, fun q hq => ?_⟩
        · rcases s2 q hq with h' | h'
          · rw [h']; exact lt_of_le_of_ne (not_lt.1 hlt) (Ne.symm hne)
          · exact h.1 q h'
        · rcases List.mem_cons.1 hq with rfl | hq
          · exact .inr (by simp)
          · rcases s2 q hq with h' | h'
            · exact .inl h'
            · exact .inr (by simp [h'])

/-- The names a saved bundle refers to. -/
def bundleEntry (l : String) : String × String := (l, l ++ ".png")

theorem readLayers_saved : ∀ {ls : List String} {acc : List (String × String)}, ls.Nodup →
    (∀ l ∈ ls, l ∉ acc.map Prod.fst) → acc.Pairwise (fun p q => p.1 < q.1) →
    ∃ ps, readLayers (ls.map fun l => ⟨some l, some (l ++ ".png")⟩) acc = .ok ps ∧
      ps.Perm (ls.map bundleEntry ++ acc) ∧ ps.Pairwise (fun p q => p.1 < q.1)
  | [], acc, _, _, hs => ⟨acc, rfl, .refl _, hs⟩
  | l :: ls, acc, hn, hd, hs => by
    rw [List.nodup_cons] at hn
    have hp := mapInsert_perm (v := l ++ ".png") (hd l (by simp))
    obtain ⟨ps, h1, h2, h3⟩ := readLayers_saved (ls := ls) (acc := mapInsert l (l ++ ".png") acc) hn.2
      (fun l' hl' hmem => by
        have := (hp.map Prod.fst).mem_iff.1 hmem
        rcases List.mem_cons.1 this with h | h
        · rw [show l' = l from h] at hl'; exact hn.1 hl'
        · exact hd l' (by simp [hl']) h)
      (mapInsert_sorted hs).1
    refine ⟨ps, h1, h2.trans ?_, h3⟩
    refine (hp.append_left _).trans ?_
    exact List.perm_middle

/-! ## Saving -/

theorem png_inj {a b : String} (h : a ++ ".png" = b ++ ".png") : a = b := by
  have := congrArg String.toList h
  rw [String.toList_append, String.toList_append] at this
  exact String.toList_inj.1 (List.append_cancel_right this)

theorem saveLayers_run {m : CostMap K} (hc : m.Coherent) : ∀ {ls : List String} (images : String → Option FileImage),
    (∀ l ∈ ls, m.exists l = true) → ∃ images', m.saveLayers ls images = .ok images' ∧
      (∀ l a, l ∈ ls → m.data l = some a → images' (l ++ ".png") = some (.bgra (a.mapIdx fun _ _ c => savePixel c))) ∧
      ∀ n, (∀ l ∈ ls, n ≠ l ++ ".png") → images' n = images n
  | [], images, _ => ⟨images, rfl, fun _ _ h => by simp at h, fun _ _ => rfl⟩
  | l :: ls, images, h => by
    obtain ⟨a, ha⟩ := exists_iff.1 (h l (by simp))
    have hd := hc.dims l a ha
    obtain ⟨im, h1, h2, h3⟩ := saveLayers_run hc (ls := ls)
      (fun name => if name = l ++ ".png" then some (.bgra (a.mapIdx fun _ _ c => savePixel c)) else images name)
      (fun l' hl' => h l' (by simp [hl']))
    refine ⟨im, ?_, ?_, ?_⟩
    · unfold saveLayers
      rw [show m.get l = .ok a by simp [CostMap.get, ha], Res.bind_ok, if_pos hd]
      exact h1
    · intro l' a' hl' ha'
      by_cases hm : l' ∈ ls
      · exact h2 l' a' hm ha'
      · have : l' = l := by
          rcases List.mem_cons.1 hl' with h | h
          · exact h
          · exact absurd h hm
        subst this
        rw [ha] at ha'; cases ha'
        rw [h3 _ fun q hq he => hm (by rw [png_inj he]; exact hq)]
        simp
    · intro n hn
      rw [h3 n fun q hq => hn q (by simp [hq])]
      simp [hn l (by simp)]

/-! ## Loading -/

theorem loadLayers_run (cv : Cv) (files : Files K) : ∀ {ps : List (String × String)} {m : CostMap K}, m.Geo → m.Coherent →
    (ps.map Prod.fst).Nodup → (∀ p ∈ ps, m.exists p.1 = false) →
    (∀ p ∈ ps, m.size.x = (FileImage.toImage (files.images p.2)).height ∧
      m.size.y = (FileImage.toImage (files.images p.2)).width) →
    ∃ m', Act.forEach (loadLayer cv files) ps m = (.ok (), m') ∧ m'.Coherent ∧ SameGeometry m m' ∧ SameMeta m m' ∧
      m'.layers = m.layers ++ ps.map Prod.fst ∧
      (∀ l i, l ∉ ps.map Prod.fst → m'.at l i = m.at l i) ∧
      ∀ p ∈ ps, ∀ i, i.In m.size → ∃ s, (FileImage.toImage (files.images p.2)).sample cv i = .ok s ∧
        m'.at p.1 i = .ok (sampleCost 256 s)
  | [], m, _, hc, _, _, _ => ⟨m, rfl, hc, ⟨rfl, rfl, rfl, rfl, rfl⟩, ⟨rfl, rfl, rfl⟩, by simp, fun _ _ _ => rfl,
      fun p hp => by simp at hp⟩
  | p :: ps, m, hg, hc, hn, he, hsz => by
    have hr : (FileImage.toImage (files.images p.2)).readable = true ∧ (FileImage.toImage (files.images p.2)).depth = 256 := by
      cases files.images p.2 with
      | none => exact ⟨rfl, rfl⟩
      | some f => cases f <;> exact ⟨rfl, rfl⟩
    obtain ⟨m1, e1, c1, sg, sm, ly, ot, vals⟩ := addLayerFromImage_run cv hg hc hr.1 (hsz p (by simp)).1
      (hsz p (by simp)).2 p.1
    rw [if_neg (by rw [he p (by simp)]; simp)] at ly
    rw [List.map_cons, List.nodup_cons] at hn
    have hg1 : m1.Geo := ⟨by rw [sg.resolution]; exact hg.res_pos, by rw [sg.size]; exact hg.size_x,
      by rw [sg.size]; exact hg.size_y, by rw [sg.length, sg.size, sg.resolution]; exact hg.len_x,
      by rw [sg.length, sg.size, sg.resolution]; exact hg.len_y, by rw [sg.startIndex, sg.size]; exact hg.start⟩
    have he1 : ∀ q ∈ ps, m1.exists q.1 = false := by
      intro q hq
      have hne : q.1 ≠ p.1 := fun h => hn.1 (h ▸ List.mem_map_of_mem hq)
      have h0 := he q (by simp [hq])
      by_contra hcon
      have h1 : q.1 ∈ m1.layers := (c1.mem_iff _).2 (by simpa [CostMap.exists, Option.isSome_iff_ne_none] using hcon)
      rw [ly, List.mem_append, List.mem_singleton] at h1
      rcases h1 with h1 | h1
      · have := (hc.mem_iff _).1 h1
        rw [CostMap.exists] at h0
        rw [h0] at this; cases this
      · exact hne h1
    obtain ⟨m', e2, c2, sg2, sm2, ly2, ot2, vals2⟩ := loadLayers_run cv files (ps := ps) hg1 c1 hn.2 he1
      (fun q hq => by rw [sg.size]; exact hsz q (by simp [hq]))
    refine ⟨m', ?_, c2, ⟨sg2.length.trans sg.length, sg2.resolution.trans sg.resolution, sg2.position.trans sg.position,
      sg2.size.trans sg.size, sg2.startIndex.trans sg.startIndex⟩, ⟨sm2.frameId.trans sm.frameId,
      sm2.timestamp.trans sm.timestamp, sm2.basicLayers.trans sm.basicLayers⟩, by rw [ly2, ly]; simp, ?_, ?_⟩
    · unfold Act.forEach
      have : loadLayer cv files p m = (.ok (), m1) := by
        unfold loadLayer; rw [Act.bind_ok e1]; rfl
      rw [Act.bind_ok this, e2]
    · intro l i hl
      simp only [List.map_cons, List.mem_cons, not_or] at hl
      rw [ot2 l i hl.2, ot l i hl.1]
    · intro q hq i hi
      rcases List.mem_cons.1 hq with rfl | hq
      · obtain ⟨s, s1, s2⟩ := vals i hi
        refine ⟨s, s1, ?_⟩
        rw [ot2 _ i hn.1, s2, hr.2]
      · exact vals2 q hq i (by rw [sg.size]; exact hi)

/-! ## Values -/

/-- What saving and loading makes of a cost. -/
def reloaded (c : Cost) : Cost :=
  if c = NO_INFORMATION then NO_INFORMATION else grayCost 256 (savePixel c).1.toNat

theorem flipped_defined (c : Cost) : 0 ≤ truncToInt (flippedDouble c) ∧ truncToInt (flippedDouble c) ≤ 255 :=
  forall_cost (P := fun c => 0 ≤ truncToInt (flippedDouble c) ∧ truncToInt (flippedDouble c) ≤ 255) (by decide +kernel) c

theorem sample_saved {cv : Cv} (hcv : cv.GrayOk) {a : Mat Cost} {i : Idx} {c : Cost} (h : a.get? i.x i.y = some c)
    {s : Option Nat} (hs : (Image.bgra8 (a.mapIdx fun _ _ c => savePixel c)).sample cv i = .ok s) :
    sampleCost 256 s = reloaded c := by
  simp only [Image.sample, Mat.get?_mapIdx, h, Option.map_some, Res.ofOption, Res.map, Res.bind_ok, Res.ok.injEq] at hs
  subst hs
  unfold reloaded
  by_cases hc : c = NO_INFORMATION
  · rw [if_pos hc]
    have : (savePixel c).2.2.2 = 0 := by simp [savePixel, hc]
    rw [this]
    rfl
  · rw [if_neg hc]
    have : (savePixel c).2.2.2 = 255 := by simp [savePixel, hc]
    rw [this, if_neg (by decide)]
    have : cv.gray8 (savePixel c).1 (savePixel c).2.1 (savePixel c).2.2.1 = (savePixel c).1 := hcv.gray8 _
    rw [this]
    rfl

/-- Rounding to `float` as far as it matters here: small relative error. -/
def Close24 (rf : K → K) : Prop := ∀ x, 0 < x → |rf x - x| ≤ x / 2 ^ 24

theorem Close24.pos {rf : K → K} (h : Close24 rf) {x : K} (hx : 0 < x) : 0 < rf x := by
  have := (abs_le.1 (h x hx)).1
  have : x / 2 ^ 24 < x := div_lt_self hx (by norm_num)
  linarith

/-- The number of cells comes back although the length is computed in `float`. -/
theorem cells_round_trip {rf : K → K} (h : Close24 rf) {r : K} (hr : 0 < r) {n : Int} (hn : 0 < n) (hn' : n < 2 ^ 23) :
    roundHalfAway (rf (r * (n.toNat : K)) / r) = n := by
  have e : ((n.toNat : Nat) : K) = (n : K) := by
    have := Int.toNat_of_nonneg hn.le
    exact_mod_cast congrArg (Int.cast (R := K)) this
  rw [e]
  have n0 : (0 : K) < n := by exact_mod_cast hn
  have n1 : (n : K) < 2 ^ 23 := by exact_mod_cast hn'
  have hp : 0 < r * n := mul_pos hr n0
  have hc := abs_le.1 (h _ hp)
  have hb : r * n / 2 ^ 24 < r / 2 := by
    rw [div_lt_div_iff₀ (by norm_num) (by norm_num)]
    nlinarith
  unfold roundHalfAway
  rw [if_pos (div_nonneg (h.pos hp).le hr.le), Int.floor_eq_iff]
  constructor
  · have : (n : K) - 1 / 2 ≤ rf (r * n) / r := by rw [le_div_iff₀ hr]; nlinarith [hc.1]
    linarith
  · have : rf (r * n) / r < n + 1 / 2 := by rw [div_lt_iff₀ hr]; nlinarith [hc.2]
    linarith

end CostMapModel

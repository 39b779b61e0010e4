import Verif.Spec.Message
import Verif.Lemmas.InflationUse

/-!
# Lemmas on messages
-/

set_option linter.unusedSectionVars false

namespace CostMapModel
variable {K : Type} [Field K] [LinearOrder K] [IsStrictOrderedRing K] [FloorRing K]

theorem Mat.eq_of {α : Type} {a b : Mat α} (h1 : a.rows = b.rows) (h2 : a.cols = b.cols) (h3 : a.data = b.data) :
    a = b := by
  cases a; cases b; simp only at h1 h2 h3; subst h1 h2 h3; rfl

namespace MultiArray

theorem toMat_ofMat {a : Mat Cost} (hr : a.rows < 2 ^ 32) (hc : a.cols < 2 ^ 32) : (ofMat a).toMat = .ok a := by
  have e1 : (UInt32.ofNat a.rows).toNat = a.rows := UInt32.toNat_ofNat_of_lt' hr
  have e2 : (UInt32.ofNat a.cols).toNat = a.cols := UInt32.toNat_ofNat_of_lt' hc
  have hm : mapData a.data a.rows a.cols = .ok a := by
    unfold mapData
    rw [dif_pos a.size_eq.ge]
    congr 1
    exact Mat.eq_of rfl rfl (by simp [← a.size_eq])
  simp only [toMat, ofMat, isRowMajor, dimSize, Res.bind_ok, List.getElem?_cons_succ, List.getElem?_cons_zero,
    show ("column_index" = "row_index") = False by simp, decide_false, Bool.false_eq_true, if_false, e1, e2, hm]

/-- A shaped array is read as the matrix it describes. -/
theorem Shaped.toMat {a : MultiArray} {rows cols : Int} (h : a.Shaped rows cols) :
    ∃ M : Mat Cost, a.toMat = .ok M ∧ (M.rows : Int) = rows ∧ (M.cols : Int) = cols ∧
      ∀ i j : Int, 0 ≤ i → i < rows → 0 ≤ j → j < cols → M.get? i j = a.valueAt rows ⟨i, j⟩ := by
  obtain ⟨d0, d1, ds, e, hl, h0, h1⟩ := h.dims
  have hn : d1.size.toNat * d0.size.toNat ≤ a.data.length := by
    have := h.enough
    rw [← h0, ← h1] at this
    exact_mod_cast this
  refine ⟨⟨d1.size.toNat, d0.size.toNat, a.data.take (d1.size.toNat * d0.size.toNat), by simp [hn]⟩, ?_, h1, h0, ?_⟩
  · simp only [MultiArray.toMat, isRowMajor, dimSize, e, Res.bind_ok, hl, decide_false, Bool.false_eq_true, if_false,
      List.getElem?_cons_succ, List.getElem?_cons_zero, mapData, hn, dite_true]
  · intro i j hi hi' hj hj'
    have hr : Mat.InRange (⟨d1.size.toNat, d0.size.toNat, a.data.take (d1.size.toNat * d0.size.toNat),
        by simp [hn]⟩ : Mat Cost) i j := ⟨hi, by simpa [h1] using hi', hj, by simpa [h0] using hj'⟩
    unfold Mat.get? valueAt
    rw [if_pos hr]
    simp only
    rw [h1, List.getElem?_take_of_lt]
    have := Mat.lin_lt (r := d1.size.toNat) (c := d0.size.toNat) hi (by omega) hj (by omega)
    rw [h1] at this
    exact this

/-- Whatever can be read as a matrix of some positive size is shaped. -/
theorem shaped_of_toMat {a : MultiArray} {M : Mat Cost} (h : a.toMat = .ok M) (hr : 0 < M.rows) :
    a.Shaped M.rows M.cols := by
  unfold MultiArray.toMat isRowMajor at h
  match e : a.dim with
  | [] => rw [e] at h; cases h
  | d0 :: ds =>
    rw [e] at h
    simp only [Res.bind_ok, decide_eq_true_eq] at h
    split at h
    · cases h; simp at hr
    · rename_i hl
      unfold dimSize at h
      match ds, e with
      | [], e => rw [e] at h; simp at h
      | d1 :: ds, e =>
        rw [e] at h
        simp only [List.getElem?_cons_succ, List.getElem?_cons_zero, Res.bind_ok, mapData] at h
        split at h
        · rename_i hn
          cases h
          exact ⟨⟨d0, d1, ds, e, hl, rfl, rfl⟩, by exact_mod_cast hn⟩
        · cases h

end MultiArray

namespace CostMap

/-- The names after adding layers one by one. -/
def namesAfter (ls : List String) : List (String × MultiArray) → List String
  | [] => ls
  | p :: ps => namesAfter (if p.1 ∈ ls then ls else ls ++ [p.1]) ps

theorem mem_namesAfter {l : String} : ∀ {ps : List (String × MultiArray)} {ls : List String},
    l ∈ namesAfter ls ps ↔ l ∈ ls ∨ l ∈ ps.map Prod.fst
  | [], ls => by simp [namesAfter]
  | p :: ps, ls => by
    rw [namesAfter, mem_namesAfter]
    by_cases h : p.1 ∈ ls
    · rw [if_pos h]
      simp only [List.map_cons, List.mem_cons]
      constructor
      · rintro (h1 | h1)
        · exact .inl h1
        · exact .inr (.inr h1)
      · rintro (h1 | h1 | h1)
        · exact .inl h1
        · exact .inl (h1 ▸ h)
        · exact .inr h1
    · rw [if_neg h]
      simp only [List.map_cons, List.mem_cons, List.mem_append, List.not_mem_nil, or_false, or_assoc]

theorem namesAfter_fresh : ∀ {ps : List (String × MultiArray)} {ls : List String},
    (ls ++ ps.map Prod.fst).Nodup → namesAfter ls ps = ls ++ ps.map Prod.fst
  | [], ls, _ => by simp [namesAfter]
  | p :: ps, ls, h => by
    have hp : p.1 ∉ ls := by
      rw [List.map_cons, List.nodup_append] at h
      exact fun hm => h.2.2 p.1 hm p.1 (by simp) rfl
    rw [namesAfter, if_neg hp, namesAfter_fresh]
    · simp
    · simpa using h

theorem addFromArray_eq {p : String × MultiArray} {a : Mat Cost} (ha : p.2.toMat = .ok a) {m : CostMap K}
    (hc : m.Coherent) (hx : (a.rows : Int) = m.size.x) (hy : (a.cols : Int) = m.size.y) :
    addFromArray p m = (.ok (), { m.setData p.1 a with
      layers := if p.1 ∈ m.layers then m.layers else m.layers ++ [p.1] }) := by
  unfold addFromArray
  rw [Act.bind_ok (show Act.lift p.2.toMat m = (.ok a, m) by rw [ha]; rfl)]
  unfold add
  rw [if_neg (by simp [hx]), if_neg (by simp [hy])]
  have hm := hc.mem_iff p.1
  by_cases h : p.1 ∈ m.layers
  · rw [if_pos (show m.exists p.1 = true from hm.1 h), if_pos h]; rfl
  · rw [if_neg (show ¬ m.exists p.1 = true from fun h' => h (hm.2 h')), if_neg h]

theorem addArrays_spec : ∀ {ps : List (String × MultiArray)} {m : CostMap K}, m.Coherent →
    (∀ p ∈ ps, ∃ a, p.2.toMat = .ok a ∧ (a.rows : Int) = m.size.x ∧ (a.cols : Int) = m.size.y) →
    ∃ m', Act.forEach addFromArray ps m = (.ok (), m') ∧ m'.Coherent ∧ SameGeometry m m' ∧ SameMeta m m' ∧
      m'.layers = namesAfter m.layers ps ∧
      ∀ l, m'.data l = match given ps l with
        | none => m.data l
        | some arr => match arr.toMat with | .ok a => some a | _ => none
  | [], m, hc, _ => ⟨m, rfl, hc, ⟨rfl, rfl, rfl, rfl, rfl⟩, ⟨rfl, rfl, rfl⟩, rfl, fun l => rfl⟩
  | p :: ps, m, hc, h => by
    obtain ⟨a, ha, hx, hy⟩ := h p (by simp)
    have e := addFromArray_eq ha hc hx hy
    have hc' : ({ m.setData p.1 a with layers := if p.1 ∈ m.layers then m.layers else m.layers ++ [p.1] } :
        CostMap K).Coherent := by
      have := add_coherent (K := K) p.1 a m hc
      have e2 : add p.1 a m = addFromArray p m := by
        unfold addFromArray
        rw [Act.bind_ok (show Act.lift p.2.toMat m = (.ok a, m) by rw [ha]; rfl)]
      rw [e2, e] at this
      exact this
    obtain ⟨m', h1, h2, h3, h4, h5, h6⟩ := addArrays_spec (ps := ps) hc' fun q hq => h q (by simp [hq])
    refine ⟨m', ?_, h2, ⟨h3.length, h3.resolution, h3.position, h3.size, h3.startIndex⟩,
      ⟨h4.frameId, h4.timestamp, h4.basicLayers⟩, h5, fun l => ?_⟩
    · unfold Act.forEach
      rw [Act.bind_ok e, h1]
    · rw [h6 l, given]
      cases given ps l with
      | some arr => rfl
      | none =>
        by_cases hl : p.1 = l
        · subst hl
          simp only [if_true, setData, ha]
        · simp only [if_neg hl, setData, if_neg (Ne.symm hl)]

/-- The loop ends normally only if every array fits. -/
theorem addArrays_ok : ∀ {ps : List (String × MultiArray)} {m m' : CostMap K},
    Act.forEach addFromArray ps m = (.ok (), m') →
    ∀ p ∈ ps, ∃ a, p.2.toMat = .ok a ∧ (a.rows : Int) = m.size.x ∧ (a.cols : Int) = m.size.y
  | [], _, _, _, p, hp => by simp at hp
  | p :: ps, m, m', h, q, hq => by
    unfold Act.forEach at h
    obtain ⟨_, m1, e1, e2⟩ := Act.bind_eq_ok h
    have key : (∃ a, p.2.toMat = .ok a ∧ (a.rows : Int) = m.size.x ∧ (a.cols : Int) = m.size.y) ∧
        m1.size = m.size := by
      unfold addFromArray at e1
      obtain ⟨a, m2, g1, g2⟩ := Act.bind_eq_ok e1
      simp only [Act.lift, Prod.mk.injEq] at g1
      obtain ⟨g1, rfl⟩ := g1
      unfold add at g2
      split at g2
      · simp at g2
      · split at g2
        · simp at g2
        · rename_i h1 h2
          simp only [ne_eq, not_not] at h1 h2
          refine ⟨⟨a, g1, h1.symm, h2.symm⟩, ?_⟩
          split at g2 <;> (simp only [Prod.mk.injEq] at g2; rw [← g2.2]; rfl)
    rcases List.mem_cons.1 hq with rfl | hq
    · exact key.1
    · rw [← key.2]
      exact addArrays_ok e2 q hq

end CostMap
end CostMapModel

namespace CostMapModel
namespace CostMap
variable {K : Type} [Field K] [LinearOrder K] [IsStrictOrderedRing K] [FloorRing K]

theorem setGeometry_run {len : Vec K} {r : K} (p : Vec K) (hx : 0 < len.x) (hy : 0 < len.y) (hr : 0 < r) (m : CostMap K) :
    setGeometry len r p m = (.ok (),
      { (m.resize ⟨roundHalfAway (len.x / r), roundHalfAway (len.y / r)⟩).clearAll with
        resolution := r
        length := ⟨(roundHalfAway (len.x / r) : K) * r, (roundHalfAway (len.y / r) : K) * r⟩
        position := p
        startIndex := 0 }) := by
  simp only [setGeometry, hx, hy, hr, not_true, if_false]

/-- The map after the first four lines of `fromMessage`. -/
def blank (msg : CostMapMsg K) (m : CostMap K) : CostMap K :=
  { (((m.setTimestamp (stampToNSec msg.stampSec msg.stampNsec)).setFrameId msg.frameId).resize msg.size).clearAll with
    resolution := msg.resolution
    length := ⟨(msg.size.x : K) * msg.resolution, (msg.size.y : K) * msg.resolution⟩
    position := msg.position
    startIndex := 0 }

theorem blank_eq {msg : CostMapMsg K} (h : msg.GeometryOk) (m : CostMap K) :
    setGeometry ⟨msg.lengthX, msg.lengthY⟩ msg.resolution msg.position
      ((m.setTimestamp (stampToNSec msg.stampSec msg.stampNsec)).setFrameId msg.frameId) = (.ok (), blank msg m) :=
  setGeometry_run _ h.len_x h.len_y h.res _

theorem blank_coherent {msg : CostMapMsg K} (h : msg.GeometryOk) {m : CostMap K} (hc : m.Coherent) :
    (blank msg m).Coherent := by
  have := setGeometry_coherent ⟨msg.lengthX, msg.lengthY⟩ msg.resolution msg.position
    ((m.setTimestamp (stampToNSec msg.stampSec msg.stampNsec)).setFrameId msg.frameId)
    ⟨hc.nodup, hc.mem_iff, hc.dims⟩
  rwa [blank_eq h] at this

theorem fromMessage_geometry {msg : CostMapMsg K} (h : ¬ msg.GeometryOk) (m : CostMap K) :
    fromMessage msg m =
      (.assertFail, (m.setTimestamp (stampToNSec msg.stampSec msg.stampNsec)).setFrameId msg.frameId) := by
  unfold fromMessage
  rw [Act.bind_ok (show Act.modify _ m = (.ok (), _) from rfl)]
  have : setGeometry ⟨msg.lengthX, msg.lengthY⟩ msg.resolution msg.position
      ((m.setTimestamp (stampToNSec msg.stampSec msg.stampNsec)).setFrameId msg.frameId) =
      (.assertFail, (m.setTimestamp (stampToNSec msg.stampSec msg.stampNsec)).setFrameId msg.frameId) := by
    unfold setGeometry
    by_cases h1 : 0 < msg.lengthX
    · by_cases h2 : 0 < msg.lengthY
      · by_cases h3 : 0 < msg.resolution
        · exact absurd ⟨h3, h1, h2⟩ h
        · simp [h1, h2, h3]
      · simp [h1, h2]
    · simp [h1]
  simp only [Act.bind, this]

theorem fromMessage_counts {msg : CostMapMsg K} (h : msg.GeometryOk) (hn : msg.layers.length ≠ msg.data.length)
    (m : CostMap K) : fromMessage msg m = (.ok false, blank msg m) := by
  unfold fromMessage
  rw [Act.bind_ok (show Act.modify _ m = (.ok (), _) from rfl), Act.bind_ok (blank_eq h m), if_pos hn]
  rfl

theorem fromMessage_run {msg : CostMapMsg K} (h : msg.GeometryOk) (hn : msg.layers.length = msg.data.length)
    {m m' : CostMap K} (e : Act.forEach addFromArray (msg.layers.zip msg.data) (blank msg m) = (.ok (), m')) :
    fromMessage msg m = (.ok true, (m'.setBasicLayers msg.basicLayers).setStartIndex
      ⟨msg.outerStartIndex.toNat, msg.innerStartIndex.toNat⟩) := by
  unfold fromMessage
  rw [Act.bind_ok (show Act.modify _ m = (.ok (), _) from rfl), Act.bind_ok (blank_eq h m), if_neg (by simp [hn]),
    Act.bind_ok e, Act.bind_ok (show Act.modify _ m' = (.ok (), _) from rfl)]
  rfl

/-- If `fromMessage` returns true then the loop over the layers ended normally. -/
theorem fromMessage_inv {msg : CostMapMsg K} {m m' : CostMap K} {b : Bool} (e : fromMessage msg m = (.ok b, m')) :
    msg.GeometryOk ∧ ((b = false ∧ msg.layers.length ≠ msg.data.length ∧ m' = blank msg m) ∨
      (b = true ∧ msg.layers.length = msg.data.length ∧
        ∃ m1, Act.forEach addFromArray (msg.layers.zip msg.data) (blank msg m) = (.ok (), m1) ∧
          m' = (m1.setBasicLayers msg.basicLayers).setStartIndex
            ⟨msg.outerStartIndex.toNat, msg.innerStartIndex.toNat⟩)) := by
  by_cases h : msg.GeometryOk
  · refine ⟨h, ?_⟩
    by_cases hn : msg.layers.length = msg.data.length
    · right
      unfold fromMessage at e
      rw [Act.bind_ok (show Act.modify _ m = (.ok (), _) from rfl), Act.bind_ok (blank_eq h m), if_neg (by simp [hn])] at e
      obtain ⟨_, m1, e1, e2⟩ := Act.bind_eq_ok e
      rw [Act.bind_ok (show Act.modify _ m1 = (.ok (), _) from rfl)] at e2
      simp only [Act.pure, Prod.mk.injEq, Res.ok.injEq] at e2
      exact ⟨e2.1.symm, hn, m1, e1, e2.2.symm⟩
    · left
      rw [fromMessage_counts h hn] at e
      simp only [Prod.mk.injEq, Res.ok.injEq] at e
      exact ⟨e.1.symm, hn, e.2.symm⟩
  · rw [fromMessage_geometry h] at e
    simp at e

theorem layerArrays_eq {m : CostMap K} : ∀ {ls : List String} {f : String → Mat Cost},
    (∀ l ∈ ls, m.data l = some (f l)) → m.layerArrays ls = .ok (ls.map fun l => MultiArray.ofMat (f l))
  | [], _, _ => rfl
  | l :: ls, f, h => by
    have h1 := h l (by simp)
    have ih := layerArrays_eq (m := m) (ls := ls) (f := f) fun l' hl' => h l' (by simp [hl'])
    simp only [layerArrays, get, h1, ih, Res.bind_ok, List.map_cons]

theorem stampOf_ok {t : Nat} (h : t < 2 ^ 32 * 1000000000) :
    ∃ s n, stampOf t = .ok (s, n) ∧ stampToNSec s n = t := by
  have h1 : t / 1000000000 < 2 ^ 32 := by omega
  refine ⟨_, _, by unfold stampOf; rw [if_pos h1], ?_⟩
  unfold stampToNSec
  rw [UInt32.toNat_ofNat_of_lt' h1, UInt32.toNat_ofNat_of_lt' (show t % 1000000000 < 2 ^ 32 by omega)]
  omega

theorem given_zip_map {f : String → MultiArray} {l : String} : ∀ {ls : List String}, l ∈ ls →
    given (ls.zip (ls.map f)) l = some (f l)
  | [], h => by simp at h
  | k :: ls, h => by
    rw [List.map_cons, List.zip_cons_cons, given]
    by_cases hm : l ∈ ls
    · rw [given_zip_map hm]
    · have hk : l = k := by simpa [hm] using h
      subst hk
      cases hg : given (ls.zip (ls.map f)) l with
      | none => simp
      | some a =>
        exfalso
        have : ∀ {ps : List (String × MultiArray)} {a}, given ps l = some a → l ∈ ps.map Prod.fst := by
          intro ps
          induction ps with
          | nil => intro a h; simp [given] at h
          | cons p ps ih =>
            intro a h
            rw [given] at h
            cases hp : given ps l with
            | some b => rw [List.map_cons]; exact List.mem_cons_of_mem _ (ih hp)
            | none =>
              rw [hp] at h
              by_cases hl : p.1 = l
              · simp [hl]
              · simp [hl] at h
        have := this hg
        rw [List.map_fst_zip (by simp)] at this
        exact hm this

theorem given_none {l : String} : ∀ {ps : List (String × MultiArray)}, l ∉ ps.map Prod.fst → given ps l = none
  | [], _ => rfl
  | p :: ps, h => by
    simp only [List.map_cons, List.mem_cons, not_or] at h
    rw [given, given_none h.2]
    simp [Ne.symm h.1]

theorem given_mem {l : String} : ∀ {ps : List (String × MultiArray)} {a : MultiArray}, given ps l = some a →
    (l, a) ∈ ps
  | [], a, h => by simp [given] at h
  | p :: ps, a, h => by
    rw [given] at h
    cases hp : given ps l with
    | some b => rw [hp] at h; cases h; exact List.mem_cons_of_mem _ (given_mem hp)
    | none =>
      rw [hp] at h
      by_cases hl : p.1 = l
      · simp only [hl, if_true, Option.some.injEq] at h
        subst hl h
        simp
      · simp [hl] at h

theorem given_some {l : String} : ∀ {ps : List (String × MultiArray)}, l ∈ ps.map Prod.fst → ∃ a, given ps l = some a
  | [], h => by simp at h
  | p :: ps, h => by
    rw [given]
    cases hp : given ps l with
    | some b => exact ⟨b, rfl⟩
    | none =>
      by_cases hl : p.1 = l
      · exact ⟨p.2, by simp [hl]⟩
      · simp only [List.map_cons, List.mem_cons, Ne.symm hl, false_or] at h
        obtain ⟨a, ha⟩ := given_some h
        rw [hp] at ha; cases ha

theorem roundHalfAway_intCast (n : Int) (hn : 0 ≤ n) : roundHalfAway (n : K) = n := by
  unfold roundHalfAway
  rw [if_pos (by exact_mod_cast hn), Int.floor_intCast_add]
  have : ⌊(1 / 2 : K)⌋ = 0 := by
    rw [Int.floor_eq_zero_iff]; constructor <;> norm_num
  rw [this, add_zero]

end CostMap
end CostMapModel

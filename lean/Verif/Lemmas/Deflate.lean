import Verif.Lemmas.InflationRun

/-! # Deflation -/

set_option linter.unusedSectionVars false

namespace CostMapModel
namespace CostMap
variable {K : Type} [Field K] [LinearOrder K] [IsStrictOrderedRing K] [FloorRing K]

theorem add_spec (ld : String) {src : Mat Cost} {m : CostMap K} (hr : (src.rows : Int) = m.size.x)
    (hcl : (src.cols : Int) = m.size.y) :
    ∃ m1, CostMap.add ld src m = (.ok (), m1) ∧ SameGeometry m m1 ∧ SameMeta m m1 ∧
      m1.layers = (if m.exists ld then m.layers else m.layers ++ [ld]) ∧
      (∀ l, m1.data l = if l = ld then some src else m.data l) := by
  unfold CostMap.add
  rw [if_neg (by simp [hr]), if_neg (by simp [hcl])]
  by_cases hex : m.exists ld = true
  · rw [if_pos hex]
    exact ⟨_, rfl, ⟨rfl, rfl, rfl, rfl, rfl⟩, ⟨rfl, rfl, rfl⟩, by rw [if_pos hex]; rfl, fun _ => rfl⟩
  · rw [if_neg hex]
    exact ⟨_, rfl, ⟨rfl, rfl, rfl, rfl, rfl⟩, ⟨rfl, rfl, rfl⟩, by rw [if_neg hex], fun _ => rfl⟩

/-- What the loop of `Deflate` does. -/
theorem deflateCells (keep : Bool) (src : Mat Cost) {ld : String} : ∀ {xs : List Idx}, xs.Nodup →
    ∀ {m : CostMap K}, m.Coherent → m.exists ld = true →
      (∀ i ∈ xs, i.In m.size ∧ src.InRange i.x i.y) →
    ∃ m', Act.forEach (deflateCell keep src ld) xs m = (.ok (), m') ∧ SameShape m m' ∧
      (∀ l, l ≠ ld → m'.data l = m.data l) ∧ (∀ i, i ∉ xs → m'.at ld i = m.at ld i) ∧
      ∀ i ∈ xs, ∀ v, src.get? i.x i.y = some v →
        m'.at ld i = .ok (if (if keep then INSCRIBED_OBSTACLE else LETHAL_OBSTACLE) ≤ v then v else FREE_SPACE)
  | [], _, m, _, _, _ => ⟨m, rfl, SameShape.refl m, fun _ _ => rfl, fun _ _ => rfl, fun i hi => by simp at hi⟩
  | x :: xs, hn, m, hc, hld, hx => by
    rw [List.nodup_cons] at hn
    obtain ⟨hxin, hxr⟩ := hx x (by simp)
    obtain ⟨w, hw⟩ := src.exists_get? hxr
    obtain ⟨m1, e1, hs1, hat1, hd1⟩ := setAt_spec hc hld hxin
      (if (if keep then INSCRIBED_OBSTACLE else LETHAL_OBSTACLE) ≤ w then w else FREE_SPACE)
    have hld1 : m1.exists ld = true := by
      have := hs1.isSome ld
      unfold CostMap.exists at *; rw [this]; exact hld
    obtain ⟨m2, e2, hs2, ho2, hnx2, hin2⟩ := deflateCells keep src hn.2 (hs1.coherent hc) hld1
      (fun i hi => ⟨by rw [hs1.geo.size]; exact (hx i (by simp [hi])).1, (hx i (by simp [hi])).2⟩)
    refine ⟨m2, ?_, hs1.trans hs2, fun l hl => by rw [ho2 l hl, hd1 l hl], ?_, ?_⟩
    · have eb : deflateCell keep src ld x m = (.ok (), m1) := by
        unfold deflateCell
        rw [Act.bind_ok (a := w) (s' := m) (by simp [Act.lift, hw, Res.ofOption])]
        exact e1
      rw [Act.forEach, Act.bind_ok eb]; exact e2
    · intro i hi
      rw [List.mem_cons, not_or] at hi
      rw [hnx2 i hi.2, hat1, if_neg (by simp [hi.1])]
    · intro i hi v hv
      by_cases h : i ∈ xs
      · exact hin2 i h v hv
      · have h' : i = x := (List.mem_cons.mp hi).resolve_right h
        subst h'
        rw [hw] at hv; cases hv
        rw [hnx2 i h, hat1, if_pos ⟨rfl, rfl⟩]

theorem deflate_spec (keep : Bool) {m : CostMap K} (hc : m.Coherent) {ls : String} (hls : m.exists ls = true)
    (ld : String) : ∃ m', deflate keep ls ld m = (.ok (), m') ∧ SameGeometry m m' ∧ SameMeta m m' ∧
      m'.layers = (if m.exists ld then m.layers else m.layers ++ [ld]) ∧ m'.Coherent ∧ m'.exists ld = true ∧
      (∀ l, l ≠ ld → m'.data l = m.data l) ∧
      ∀ i v, m.at ls i = .ok v →
        m'.at ld i = .ok (if (if keep then INSCRIBED_OBSTACLE else LETHAL_OBSTACLE) ≤ v then v else FREE_SPACE) := by
  obtain ⟨src, hsrc⟩ := CostMap.exists_iff.mp hls
  obtain ⟨hr, hcl⟩ := hc.dims ls src hsrc
  obtain ⟨m1, e1, hg1, hm1, hl1, hd1⟩ := add_spec ld
    (src := Mat.const m.size.x.toNat m.size.y.toNat NO_INFORMATION) (m := m)
    (by rw [Mat.rows_const]; omega) (by rw [Mat.cols_const]; omega)
  have hc1 : m1.Coherent := by
    have := CostMap.addConst_coherent ld NO_INFORMATION m hc
    unfold addConst at this
    rw [e1] at this; exact this
  have hld1 : m1.exists ld = true := by unfold CostMap.exists; rw [hd1, if_pos rfl]; rfl
  have hmem : ∀ i, i ∈ Inflation.colMajor src.rows src.cols ↔ i.In m.size := by
    intro i
    rw [Inflation.mem_colMajor]; unfold Idx.In; omega
  obtain ⟨m2, e2, hs2, ho2, -, hin2⟩ := deflateCells keep src (Inflation.colMajor_nodup src.rows src.cols) hc1 hld1
    (fun i hi => ⟨by rw [hg1.size]; exact (hmem i).mp hi, (hc.inRange hsrc i).mpr ((hmem i).mp hi)⟩)
  refine ⟨m2, ?_, ?_, ?_, by rw [hs2.layers, hl1], hs2.coherent hc1, ?_, ?_, ?_⟩
  · unfold deflate
    rw [Act.bind_ok (s' := m) (a := src) (by simp only [Act.read, CostMap.get, hsrc])]
    rw [Act.bind_ok (s' := m1) (a := ()) (show addConst ld NO_INFORMATION m = _ from e1)]
    exact e2
  · exact ⟨hs2.geo.length.trans hg1.length, hs2.geo.resolution.trans hg1.resolution,
      hs2.geo.position.trans hg1.position, hs2.geo.size.trans hg1.size,
      hs2.geo.startIndex.trans hg1.startIndex⟩
  · exact ⟨hs2.info.frameId.trans hm1.frameId, hs2.info.timestamp.trans hm1.timestamp,
      hs2.info.basicLayers.trans hm1.basicLayers⟩
  · have := hs2.isSome ld
    unfold CostMap.exists at *; rw [this]; exact hld1
  · intro l hl; rw [ho2 l hl, hd1, if_neg hl]
  · intro i v hv
    have hv' : src.get? i.x i.y = some v := by
      rw [CostMap.at_eq hsrc] at hv
      unfold Res.ofOption at hv
      split at hv
      · rename_i h; cases hv; exact h
      · cases hv
    have hi : src.InRange i.x i.y := by
      by_contra h
      rw [(src.get?_eq_none_iff i.x i.y).mpr h] at hv'; cases hv'
    exact hin2 i ((hmem i).mpr ((hc.inRange hsrc i).mp hi)) v hv'

end CostMap
end CostMapModel

import Verif.Model.Submap
import Verif.Lemmas.Box
import Verif.Spec.Move

/-! # Submaps: geometry, buffer regions, copying -/

set_option linter.unusedSectionVars false

namespace CostMapModel

/-! ## Buffer regions -/

/-- The cells of the submap that region `r` is copied to. -/
def InDest (sub : Idx) (r : BufferRegion) (d : Idx) : Prop :=
  ∃ o, CostMap.cornerOrigin r.quadrant sub.x sub.y r.size = some o ∧
    (o.x ≤ d.x ∧ d.x < o.x + r.size.x) ∧ (o.y ≤ d.y ∧ d.y < o.y + r.size.y)

/-- What a list of buffer regions has to satisfy to copy a submap whose upper left cell is `u`. -/
structure RegionsOk (u sub size start : Idx) (regs : List BufferRegion) : Prop where
  count : regs.length ≤ 4
  inside : ∀ r ∈ regs, 0 < r.size.x ∧ 0 < r.size.y ∧ 0 ≤ r.startIndex.x ∧ 0 ≤ r.startIndex.y ∧
    r.startIndex.x + r.size.x ≤ size.x ∧ r.startIndex.y + r.size.y ≤ size.y ∧ r.size.x ≤ sub.x ∧ r.size.y ≤ sub.y
  origin : ∀ r ∈ regs, ∃ o, CostMap.cornerOrigin r.quadrant sub.x sub.y r.size = some o ∧ 0 ≤ o.x ∧ 0 ≤ o.y ∧
    o.x + r.size.x ≤ sub.x ∧ o.y + r.size.y ≤ sub.y ∧
    ∀ d, (o.x ≤ d.x ∧ d.x < o.x + r.size.x) → (o.y ≤ d.y ∧ d.y < o.y + r.size.y) →
      bufferIdx (u + d) size start = r.startIndex + (d - o)
  cover : ∀ d : Idx, d.In sub → ∃ r ∈ regs, InDest sub r d
  disjoint : regs.Pairwise fun r s => ∀ i, ¬ (InRegion r i ∧ InRegion s i)

/-- Closes a claim about every region of an explicit list. -/
macro "each_region" : tactic => `(tactic|
  (simp only [List.forall_mem_cons, List.not_mem_nil, false_imp_iff, implies_true, and_true, Idx.zero_x, Idx.zero_y]
   omega))

/-- Closes the claim about the origins of the blocks of an explicit list. -/
macro "each_origin" : tactic => `(tactic|
  (simp only [List.forall_mem_cons, List.not_mem_nil, false_imp_iff, implies_true, and_true, Idx.zero_x, Idx.zero_y,
     CostMap.cornerOrigin, Option.some.injEq, exists_eq_left', buf]
   repeat' apply And.intro
   all_goals first
     | omega
     | (intro d h1 h2; split <;> omega)))

/-- Closes the claim that the destinations of an explicit list cover the submap. -/
macro "each_cover" : tactic => `(tactic|
  (rintro d ⟨d1, d2, d3, d4⟩
   simp only [List.mem_cons, List.not_mem_nil, or_false, exists_eq_or_imp, exists_eq_left, InDest,
     CostMap.cornerOrigin, Option.some.injEq, exists_eq_left', Idx.zero_x, Idx.zero_y]
   omega))

/-- Closes the claim that the regions of an explicit list are disjoint. -/
macro "each_disjoint" : tactic => `(tactic|
  (simp only [List.pairwise_cons, List.forall_mem_cons, List.not_mem_nil, false_imp_iff, implies_true, InRegion,
     List.Pairwise.nil, and_true, Idx.zero_x, Idx.zero_y]
   try
     repeat' apply And.intro
     all_goals (intro i; omega)))

theorem bufferRegions_spec {u sub size start : Idx} (hs : start.In size) (hu : u.In size) (hsx : 0 < sub.x)
    (hsy : 0 < sub.y) (hfx : u.x + sub.x ≤ size.x) (hfy : u.y + sub.y ≤ size.y) :
    ∃ regs, bufferRegions (bufferIdx u size start) sub size start = some regs ∧
      RegionsOk u sub size start regs := by
  have hun := unwrap_buffer hu hs
  have hbe := bufferIdx_eq hu hs
  have hbuf : ∀ d : Idx, d.In sub → bufferIdx (u + d) size start =
      ⟨buf (u.x + d.x) size.x start.x, buf (u.y + d.y) size.y start.y⟩ := by
    rintro d ⟨d1, d2, d3, d4⟩
    obtain ⟨u1, u2, u3, u4⟩ := hu
    exact bufferIdx_eq (u := u + d) ⟨by simp; omega, by simp; omega, by simp; omega, by simp; omega⟩ hs
  obtain ⟨u1, u2, u3, u4⟩ := hu
  obtain ⟨s1, s2, s3, s4⟩ := hs
  have hbi : (bufferIdx u size start).x = buf u.x size.x start.x ∧
      (bufferIdx u size start).y = buf u.y size.y start.y := by rw [hbe]; exact ⟨rfl, rfl⟩
  unfold bufferRegions
  simp only [hun]
  rw [if_neg (by omega)]
  have hw : ∀ (u sub n s : Int), 0 ≤ u → 0 < sub → 0 ≤ s → s < n → u + sub ≤ n →
      wrap1 (buf u n s + sub - 1) n = if u + s < n then (if u + s + sub - 1 < n then u + s + sub - 1 else
        u + s + sub - 1 - n) else u + s - n + sub - 1 := by
    intro u sub n s h1 h2 h3 h4 h5
    rw [wrap1_eq (by unfold buf; split <;> omega) (by unfold buf; split <;> omega)]
    unfold buf
    split <;> split <;> (try split) <;> omega
  have hbr : bound2 wrap1 (bufferIdx u size start + sub - Idx.ones) size =
      ⟨wrap1 (buf u.x size.x start.x + sub.x - 1) size.x, wrap1 (buf u.y size.y start.y + sub.y - 1) size.y⟩ := by
    ext <;> simp [bound2, hbi.1, hbi.2]
  rw [hbr, hw u.x sub.x size.x start.x u1 hsx s1 s2 hfx, hw u.y sub.y size.y start.y u3 hsy s3 s4 hfy, hbe]
  have hbx : buf u.x size.x start.x = if u.x + start.x < size.x then u.x + start.x else u.x + start.x - size.x := rfl
  have hby : buf u.y size.y start.y = if u.y + start.y < size.y then u.y + start.y else u.y + start.y - size.y := rfl
  rw [hbx, hby]
  clear hbx hby hbr hw hbi hbe hun
  have hdone : ∀ regs : List BufferRegion, regs.length ≤ 4 →
      (∀ r ∈ regs, 0 < r.size.x ∧ 0 < r.size.y ∧ 0 ≤ r.startIndex.x ∧ 0 ≤ r.startIndex.y ∧
        r.startIndex.x + r.size.x ≤ size.x ∧ r.startIndex.y + r.size.y ≤ size.y) →
      (∀ r ∈ regs, ∃ o, CostMap.cornerOrigin r.quadrant sub.x sub.y r.size = some o ∧ 0 ≤ o.x ∧ 0 ≤ o.y ∧
        o.x + r.size.x ≤ sub.x ∧ o.y + r.size.y ≤ sub.y ∧
        (∀ d, o.x ≤ d → d < o.x + r.size.x → buf (u.x + d) size.x start.x = r.startIndex.x + (d - o.x)) ∧
        (∀ d, o.y ≤ d → d < o.y + r.size.y → buf (u.y + d) size.y start.y = r.startIndex.y + (d - o.y))) →
      (∀ d : Idx, d.In sub → ∃ r ∈ regs, InDest sub r d) →
      (regs.Pairwise fun r s => ∀ i, ¬ (InRegion r i ∧ InRegion s i)) → RegionsOk u sub size start regs := by
    intro regs h1 h2 h3 h4 h5
    refine ⟨h1, ?_, ?_, h4, h5⟩
    · intro r hr
      obtain ⟨a, b, c, d, e, f⟩ := h2 r hr
      obtain ⟨o, -, o1, o2, o3, o4, -⟩ := h3 r hr
      exact ⟨a, b, c, d, e, f, by omega, by omega⟩
    · intro r hr
      obtain ⟨o, ho, o1, o2, o3, o4, o5, o6⟩ := h3 r hr
      refine ⟨o, ho, o1, o2, o3, o4, ?_⟩
      intro d hx hy
      rw [hbuf d ⟨by omega, by omega, by omega, by omega⟩]
      ext
      · exact o5 d.x hx.1 hx.2
      · exact o6 d.y hy.1 hy.2
  clear hbuf
  have Q : ∀ a b : Int, (start.x ≤ a → start.y ≤ b → getQuadrant ⟨a, b⟩ start = .topLeft) ∧
      (start.x ≤ a → b < start.y → getQuadrant ⟨a, b⟩ start = .topRight) ∧
      (a < start.x → start.y ≤ b → getQuadrant ⟨a, b⟩ start = .bottomLeft) ∧
      (a < start.x → b < start.y → getQuadrant ⟨a, b⟩ start = .bottomRight) := by
    intro a b
    unfold getQuadrant
    refine ⟨?_, ?_, ?_, ?_⟩ <;> intro h1 h2
    · rw [if_pos ⟨h1, h2⟩]
    · rw [if_neg (by simp only; omega), if_pos ⟨h1, h2⟩]
    · rw [if_neg (by simp only; omega), if_neg (by simp only; omega), if_pos ⟨h1, h2⟩]
    · rw [if_neg (by simp only; omega), if_neg (by simp only; omega), if_neg (by simp only; omega)]
  have fin : ∀ regs : List BufferRegion, RegionsOk u sub size start regs →
    ∃ regs', some regs = some regs' ∧ RegionsOk u sub size start regs' := fun regs h => ⟨regs, rfl, h⟩
  by_cases hx1 : u.x + start.x < size.x <;> by_cases hy1 : u.y + start.y < size.y
  · by_cases hx2 : u.x + start.x + sub.x - 1 < size.x <;> by_cases hy2 : u.y + start.y + sub.y - 1 < size.y
    · simp only [hx1, hy1, hx2, hy2, if_true]
      rw [(Q _ _).1 (by omega) (by omega), (Q _ _).1 (by omega) (by omega)]
      apply fin
      exact hdone _ (by simp) (by each_region) (by each_origin) (by each_cover) (by each_disjoint)
    · simp only [hx1, hy1, hx2, hy2, if_true, if_false]
      rw [(Q _ _).1 (by omega) (by omega), (Q _ _).2.1 (by omega) (by omega)]
      apply fin
      exact hdone _ (by simp) (by each_region) (by each_origin) (by each_cover) (by each_disjoint)
    · simp only [hx1, hy1, hx2, hy2, if_true, if_false]
      rw [(Q _ _).1 (by omega) (by omega), (Q _ _).2.2.1 (by omega) (by omega)]
      apply fin
      exact hdone _ (by simp) (by each_region) (by each_origin) (by each_cover) (by each_disjoint)
    · simp only [hx1, hy1, hx2, hy2, if_true, if_false]
      rw [(Q _ _).1 (by omega) (by omega), (Q _ _).2.2.2 (by omega) (by omega)]
      apply fin
      exact hdone _ (by simp) (by each_region) (by each_origin) (by each_cover) (by each_disjoint)
  · by_cases hx2 : u.x + start.x + sub.x - 1 < size.x
    · simp only [hx1, hy1, hx2, if_true, if_false]
      rw [(Q _ _).2.1 (by omega) (by omega), (Q _ _).2.1 (by omega) (by omega)]
      apply fin
      exact hdone _ (by simp) (by each_region) (by each_origin) (by each_cover) (by each_disjoint)
    · simp only [hx1, hy1, hx2, if_true, if_false]
      rw [(Q _ _).2.1 (by omega) (by omega), (Q _ _).2.2.2 (by omega) (by omega)]
      apply fin
      exact hdone _ (by simp) (by each_region) (by each_origin) (by each_cover) (by each_disjoint)
  · by_cases hy2 : u.y + start.y + sub.y - 1 < size.y
    · simp only [hx1, hy1, hy2, if_true, if_false]
      rw [(Q _ _).2.2.1 (by omega) (by omega), (Q _ _).2.2.1 (by omega) (by omega)]
      apply fin
      exact hdone _ (by simp) (by each_region) (by each_origin) (by each_cover) (by each_disjoint)
    · simp only [hx1, hy1, hy2, if_true, if_false]
      rw [(Q _ _).2.2.1 (by omega) (by omega), (Q _ _).2.2.2 (by omega) (by omega)]
      apply fin
      exact hdone _ (by simp) (by each_region) (by each_origin) (by each_cover) (by each_disjoint)
  · simp only [hx1, hy1, if_false]
    rw [(Q _ _).2.2.2 (by omega) (by omega), (Q _ _).2.2.2 (by omega) (by omega)]
    apply fin
    exact hdone _ (by simp) (by each_region) (by each_origin) (by each_cover) (by each_disjoint)

/-! ## Geometry -/

section geometry
open CostMap
variable {K : Type} [Field K] [LinearOrder K] [IsStrictOrderedRing K] [FloorRing K]

/-- Upper corner of the requested rectangle. -/
def reqHigh (pos len : Vec K) : Vec K := ⟨pos.x + 1 / 2 * len.x, pos.y + 1 / 2 * len.y⟩
/-- Lower corner of the requested rectangle. -/
def reqLow (pos len : Vec K) : Vec K := ⟨pos.x - 1 / 2 * len.x, pos.y - 1 / 2 * len.y⟩

/-- Length of a block of `sz` cells. -/
def subLength (m : CostMap K) (sz : Idx) : Vec K := ⟨(sz.x : K) * m.resolution, (sz.y : K) * m.resolution⟩
/-- Centre of a block of `sz` cells whose upper left cell is `T`. -/
def subCenter (m : CostMap K) (T sz : Idx) : Vec K :=
  ⟨(m.center T).x + 1 / 2 * m.resolution - 1 / 2 * ((sz.x : K) * m.resolution),
   (m.center T).y + 1 / 2 * m.resolution - 1 / 2 * ((sz.y : K) * m.resolution)⟩

/-- What the map of a block of cells needs for its geometry. -/
structure BlockOf (m s : CostMap K) (T sz : Idx) : Prop where
  posx : 0 < sz.x
  posy : 0 < sz.y
  t_in : T.In m.size
  fitx : T.x + sz.x ≤ m.size.x
  fity : T.y + sz.y ≤ m.size.y
  length : s.length = subLength m sz
  position : s.position = subCenter m T sz
  resolution : s.resolution = m.resolution
  size : s.size = sz
  start : s.startIndex = 0

theorem BlockOf.geo {m s : CostMap K} {T sz : Idx} (h : m.Geo) (hb : BlockOf m s T sz) : s.Geo where
  res_pos := by rw [hb.resolution]; exact h.res_pos
  size_x := by rw [hb.size]; exact hb.posx
  size_y := by rw [hb.size]; exact hb.posy
  len_x := by rw [hb.length, hb.size, hb.resolution]; rfl
  len_y := by rw [hb.length, hb.size, hb.resolution]; rfl
  start := by rw [hb.size, hb.start]; exact ⟨le_refl _, hb.posx, le_refl _, hb.posy⟩

theorem BlockOf.cellU {m s : CostMap K} {T sz : Idx} (h : m.Geo) (hb : BlockOf m s T sz) (q : Vec K) :
    s.cellU q = m.cellU q - T := by
  have hr := h.res_pos
  have key : ∀ (L c q : K) (k n : Int), ⌊(c + L / 2 - m.resolution / 2 - m.resolution * (k : K) + 1 / 2 * m.resolution
      - 1 / 2 * ((n : K) * m.resolution) + (n : K) * m.resolution / 2 - q) / m.resolution⌋
      = ⌊(c + L / 2 - q) / m.resolution⌋ - k := by
    intro L c q k n
    rw [← Int.floor_sub_intCast]
    congr 1
    field_simp
    ring
  simp only [CostMap.cellU, hb.length, hb.position, hb.resolution, subLength, subCenter, center]
  ext
  · exact key _ _ _ _ _
  · exact key _ _ _ _ _

theorem BlockOf.center {m s : CostMap K} {T sz : Idx} (hb : BlockOf m s T sz) (u : Idx) :
    s.center u = m.center (T + u) := by
  simp only [CostMap.center, hb.length, hb.position, hb.resolution, subLength, subCenter]
  ext
  · push_cast [Idx.add_x]; ring
  · push_cast [Idx.add_y]; ring

theorem submapInformation_eq {reqPos reqLen len mapPos L C c : Vec K} {res : K} {size start tlI brI T B sz : Idx}
    (e1 : indexFromPosition (boundPosition (reqHigh reqPos reqLen) len mapPos) len mapPos res size start = (tlI, true))
    (e2 : indexFromPosition (boundPosition (reqLow reqPos reqLen) len mapPos) len mapPos res size start = (brI, true))
    (e3 : positionFromIndex tlI len mapPos res size start = some c)
    (u1 : unwrapIdx tlI size start = T) (u2 : unwrapIdx brI size start = B) (hsz : B - T + Idx.ones = sz)
    (hL : (⟨(sz.x : K) * res, (sz.y : K) * res⟩ : Vec K) = L)
    (hC : (⟨c.x + 1 / 2 * res - 1 / 2 * ((sz.x : K) * res), c.y + 1 / 2 * res - 1 / 2 * ((sz.y : K) * res)⟩ : Vec K) = C) :
    submapInformation reqPos reqLen len mapPos res size start =
      if withinMap reqPos L C = true then some ⟨tlI, sz, C, L, (indexFromPosition reqPos L C res sz 0).1⟩ else none := by
  simp only [reqHigh] at e1
  simp only [reqLow] at e2
  unfold submapInformation
  simp only [e1, e2, e3, u1, u2, hsz, Bool.not_true, Bool.false_eq_true, if_false]
  subst hL
  rw [hC]
  by_cases hw : withinMap reqPos ⟨(sz.x : K) * res, (sz.y : K) * res⟩ C = true
  · rw [if_pos hw, if_neg]
    simp only [indexFromPosition, hw, Bool.not_true, Bool.false_eq_true, not_false_eq_true]
  · rw [if_neg hw, if_pos]
    simp only [indexFromPosition, hw, Bool.not_false]

theorem submapGeometry_eq {m : CostMap K} (h : m.Geo) {pos len : Vec K}
    (ht : m.isInside (boundPosition (reqHigh pos len) m.length m.position) = true)
    (hb : m.isInside (boundPosition (reqLow pos len) m.length m.position) = true) :
    m.submapGeometry pos len =
      let T := cornerCell m (reqHigh pos len)
      let sz := cornerCell m (reqLow pos len) - T + Idx.ones
      if withinMap pos (subLength m sz) (subCenter m T sz) = true then
        some ⟨bufferIdx T m.size m.startIndex, sz, subCenter m T sz, subLength m sz,
          (indexFromPosition pos (subLength m sz) (subCenter m T sz) m.resolution sz 0).1⟩
      else none := by
  have hTin : (cornerCell m (reqHigh pos len)).In m.size := (isInside_iff h _).mp ht
  have hBin : (cornerCell m (reqLow pos len)).In m.size := (isInside_iff h _).mp hb
  have e1 : indexFromPosition (boundPosition (reqHigh pos len) m.length m.position) m.length m.position m.resolution
      m.size m.startIndex = (bufferIdx (cornerCell m (reqHigh pos len)) m.size m.startIndex, true) := getIndex_eq h ht
  have e2 : indexFromPosition (boundPosition (reqLow pos len) m.length m.position) m.length m.position m.resolution
      m.size m.startIndex = (bufferIdx (cornerCell m (reqLow pos len)) m.size m.startIndex, true) := getIndex_eq h hb
  have e3 : positionFromIndex (bufferIdx (cornerCell m (reqHigh pos len)) m.size m.startIndex) m.length m.position
      m.resolution m.size m.startIndex = some (m.center (cornerCell m (reqHigh pos len))) := by
    have := getPosition_eq (m := m) (bufferIdx_in hTin h.start)
    rw [unwrap_buffer hTin h.start] at this
    exact this
  simp only [CostMap.submapGeometry]
  exact submapInformation_eq e1 e2 e3 (unwrap_buffer hTin h.start) (unwrap_buffer hBin h.start) rfl rfl rfl

theorem withinMap_iff (p len c : Vec K) : withinMap p len c = true ↔
    (c.x - len.x / 2 < p.x ∧ p.x ≤ c.x + len.x / 2) ∧ (c.y - len.y / 2 < p.y ∧ p.y ≤ c.y + len.y / 2) := by
  unfold withinMap
  simp only [Bool.and_eq_true, decide_eq_true_eq]
  constructor
  · rintro ⟨⟨⟨a, b⟩, c⟩, d⟩; refine ⟨⟨?_, ?_⟩, ⟨?_, ?_⟩⟩ <;> linarith
  · rintro ⟨⟨a, b⟩, ⟨c, d⟩⟩; refine ⟨⟨⟨?_, ?_⟩, ?_⟩, ?_⟩ <;> linarith

/-- What a successful `SubmapGeometry` holds. -/
theorem submapGeometry_some {m : CostMap K} (h : m.Geo) {pos len : Vec K} {info : SubmapInfo K}
    (hs : m.submapGeometry pos len = some info) :
    let T := cornerCell m (reqHigh pos len)
    let B := cornerCell m (reqLow pos len)
    let sz := B - T + Idx.ones
    T.In m.size ∧ B.In m.size ∧ T.x ≤ B.x ∧ T.y ≤ B.y ∧
      withinMap pos (subLength m sz) (subCenter m T sz) = true ∧
      info = ⟨bufferIdx T m.size m.startIndex, sz, subCenter m T sz, subLength m sz,
          (indexFromPosition pos (subLength m sz) (subCenter m T sz) m.resolution sz 0).1⟩ := by
  intro T B sz
  have ht : m.isInside (boundPosition (reqHigh pos len) m.length m.position) = true := by
    by_contra hn
    simp only [CostMap.isInside, reqHigh] at hn
    simp only [submapGeometry, submapInformation, indexFromPosition, hn, Bool.not_false, if_true, reduceCtorEq] at hs
  have hb : m.isInside (boundPosition (reqLow pos len) m.length m.position) = true := by
    by_contra hn
    simp only [CostMap.isInside, reqLow] at hn
    simp only [submapGeometry, submapInformation, indexFromPosition, hn, Bool.not_false, if_true, ite_self,
      reduceCtorEq] at hs
  rw [submapGeometry_eq h ht hb] at hs
  simp only at hs
  split at hs
  · rename_i hw
    have hr := h.res_pos
    obtain ⟨⟨w1, w2⟩, w3, w4⟩ := (withinMap_iff _ _ _).mp hw
    have hx : (0 : K) < (sz.x : K) * m.resolution := by
      simp only [subLength] at w1 w2
      linarith
    have hy : (0 : K) < (sz.y : K) * m.resolution := by
      simp only [subLength] at w3 w4
      linarith
    have hx' : 0 < sz.x := by
      have := (mul_pos_iff_of_pos_right hr).mp hx
      exact_mod_cast this
    have hy' : 0 < sz.y := by
      have := (mul_pos_iff_of_pos_right hr).mp hy
      exact_mod_cast this
    have e1 : sz.x = B.x - T.x + 1 := rfl
    have e2 : sz.y = B.y - T.y + 1 := rfl
    exact ⟨(isInside_iff h _).mp ht, (isInside_iff h _).mp hb, by omega, by omega, hw, (Option.some.inj hs).symm⟩
  · cases hs

section axis
variable {n : Int} {r c p q : K}

/-- A position below a corner of the request is in a cell after the corner's. -/
theorem bcell_le_cell (hr : 0 < r) (hn : 0 < n) (he : eps1 p < r) (hq : c - (n : K) * r / 2 < q)
    (hq' : q ≤ c + (n : K) * r / 2) (h : q ≤ p) : bcell n r c p ≤ ⌊(c + (n : K) * r / 2 - q) / r⌋ := by
  have hn' : (0 : K) < n := by exact_mod_cast hn
  have hep := eps1_pos p
  have h0 : 0 ≤ ⌊(c + (n : K) * r / 2 - q) / r⌋ := Int.floor_nonneg.mpr (div_nonneg (by linarith) hr.le)
  rcases bound1_cases p ((n : K) * r) c (by positivity) with ⟨h1, h2⟩ | ⟨h1, h2⟩ | ⟨h0, h1, h2⟩
  · linarith
  · have : bcell n r c p = 0 := by
      unfold bcell
      rw [h2, floor_div_eq_iff hr]; push_cast
      constructor <;> linarith
    omega
  · unfold bcell
    rw [h2]
    exact Int.floor_le_floor (div_le_div_of_nonneg_right (by linarith) hr.le)

theorem cell_le_bcell (hr : 0 < r) (hn : 0 < n) (he : eps1 p < r) (hq : c - (n : K) * r / 2 < q)
    (hq' : q ≤ c + (n : K) * r / 2) (h : p ≤ q) : ⌊(c + (n : K) * r / 2 - q) / r⌋ ≤ bcell n r c p := by
  have hn' : (0 : K) < n := by exact_mod_cast hn
  have hep := eps1_pos p
  have hlt : ⌊(c + (n : K) * r / 2 - q) / r⌋ < n := by
    rw [Int.floor_lt, div_lt_iff₀ hr]; linarith
  rcases bound1_cases p ((n : K) * r) c (by positivity) with ⟨h1, h2⟩ | ⟨h1, h2⟩ | ⟨h0, h1, h2⟩
  · have : bcell n r c p = n - 1 := by
      unfold bcell
      rw [h2, floor_div_eq_iff hr]; push_cast
      constructor <;> linarith
    omega
  · have : q = c + (n : K) * r / 2 := by linarith
    rw [this, sub_self, zero_div, Int.floor_zero]
    exact (bcell_range hr hn he).1
  · unfold bcell
    rw [h2]
    exact Int.floor_le_floor (div_le_div_of_nonneg_right (by linarith) hr.le)

/-- Cells after an upper corner reach below it. -/
theorem lt_of_bcell_le (hr : 0 < r) (hn : 0 < n) {k : Int} (hk : 0 ≤ k) (hp : c - (n : K) * r / 2 < p)
    (h : bcell n r c p ≤ k) : c + (n : K) * r / 2 - r * (k + 1) < p := by
  have hn' : (0 : K) < n := by exact_mod_cast hn
  have hk' : (0 : K) ≤ k := by exact_mod_cast hk
  rcases bound1_cases p ((n : K) * r) c (by positivity) with ⟨h1, h2⟩ | ⟨h1, h2⟩ | ⟨h0, h1, h2⟩
  · linarith
  · nlinarith
  · unfold bcell at h
    rw [h2, ← Int.lt_add_one_iff, Int.floor_lt, div_lt_iff₀ hr] at h
    push_cast at h
    linarith

/-- Cells before a lower corner reach above it. -/
theorem le_of_le_bcell (hr : 0 < r) (hn : 0 < n) {k : Int} (hk : k < n) (hp : p ≤ c + (n : K) * r / 2)
    (he : eps1 p < r) (h : k ≤ bcell n r c p) : p ≤ c + (n : K) * r / 2 - r * k := by
  have hn' : (0 : K) < n := by exact_mod_cast hn
  have hk' : (k : K) + 1 ≤ n := by exact_mod_cast hk
  have hep := eps1_pos p
  rcases bound1_cases p ((n : K) * r) c (by positivity) with ⟨h1, h2⟩ | ⟨h1, h2⟩ | ⟨h0, h1, h2⟩
  · nlinarith
  · have : bcell n r c p = 0 := by
      unfold bcell
      rw [h2, floor_div_eq_iff hr]; push_cast
      constructor <;> linarith
    have : (k : K) ≤ 0 := by
      have : k ≤ 0 := by omega
      exact_mod_cast this
    nlinarith
  · unfold bcell at h
    rw [h2, Int.le_floor, le_div_iff₀ hr] at h
    linarith

end axis

/-! ## Copying -/

/-- Dimensions of the matrices of a layer, as far as copying needs them. -/
def HasDims (a : Mat Cost) (sz : Idx) : Prop := (a.rows : Int) = sz.x ∧ (a.cols : Int) = sz.y

theorem copyRegion_spec {T sub size start : Idx} {regs : List BufferRegion} (hok : RegionsOk T sub size start regs)
    {l : String} {a dst : Mat Cost} (ha : HasDims a size) {s : CostMap K} (hd : s.data l = some dst)
    (hdd : HasDims dst sub) {r : BufferRegion} (hr : r ∈ regs) :
    ∃ d', copyRegion l a r s = (.ok (), s.setData l d') ∧ d'.rows = dst.rows ∧ d'.cols = dst.cols ∧
      ∀ d : Idx, d.In sub →
        (InDest sub r d → d'.get? d.x d.y = a.get? (bufferIdx (T + d) size start).x (bufferIdx (T + d) size start).y) ∧
        (¬ InDest sub r d → d'.get? d.x d.y = dst.get? d.x d.y) := by
  obtain ⟨i1, i2, i3, i4, i5, i6, i7, i8⟩ := hok.inside r hr
  obtain ⟨o, ho, o1, o2, o3, o4, o5⟩ := hok.origin r hr
  unfold copyRegion
  simp only [hd, Option.getD_some]
  rw [hdd.1, hdd.2, ho]
  simp only
  unfold copyBlock
  rw [if_pos (by rw [hdd.1, hdd.2, ha.1, ha.2]; exact ⟨by omega, by omega, o1, o2, o3, o4, i3, i4, i5, i6⟩)]
  refine ⟨_, rfl, rfl, rfl, ?_⟩
  intro d hdin
  obtain ⟨d1, d2, d3, d4⟩ := hdin
  have hir : dst.InRange d.x d.y := by
    unfold Mat.InRange
    rw [hdd.1, hdd.2]
    exact ⟨d1, d2, d3, d4⟩
  obtain ⟨v, hv⟩ := dst.exists_get? hir
  rw [Mat.get?_mapIdx, hv, Option.map_some]
  constructor
  · rintro ⟨o', ho', ⟨c1, c2⟩, c3, c4⟩
    rw [ho] at ho'
    cases ho'
    rw [if_pos ⟨c1, c2, c3, c4⟩, o5 d ⟨c1, c2⟩ ⟨c3, c4⟩]
    have hia : a.InRange (r.startIndex.x + (d.x - o.x)) (r.startIndex.y + (d.y - o.y)) := by
      unfold Mat.InRange
      rw [ha.1, ha.2]
      refine ⟨?_, ?_, ?_, ?_⟩ <;> omega
    obtain ⟨w, hw⟩ := a.exists_get? hia
    simp only [Idx.add_x, Idx.add_y, Idx.sub_x, Idx.sub_y, hw, Option.getD_some]
  · intro hn
    rw [if_neg]
    intro hc
    exact hn ⟨o, ho, ⟨hc.1, hc.2.1⟩, hc.2.2⟩

theorem copyRegions_spec {T sub size start : Idx} {regs : List BufferRegion} (hok : RegionsOk T sub size start regs)
    {l : String} {a : Mat Cost} (ha : HasDims a size) : ∀ (rs : List BufferRegion), (∀ r ∈ rs, r ∈ regs) →
    ∀ {s : CostMap K} {dst : Mat Cost}, s.data l = some dst → HasDims dst sub →
    ∃ s' d', Act.forEach (copyRegion l a) rs s = (.ok (), s') ∧ SameShape s s' ∧ s'.data l = some d' ∧ HasDims d' sub ∧
      (∀ l', l' ≠ l → s'.data l' = s.data l') ∧
      ∀ d : Idx, d.In sub →
        ((∃ r ∈ rs, InDest sub r d) →
          d'.get? d.x d.y = a.get? (bufferIdx (T + d) size start).x (bufferIdx (T + d) size start).y) ∧
        (¬ (∃ r ∈ rs, InDest sub r d) → d'.get? d.x d.y = dst.get? d.x d.y)
  | [], _, s, dst, hd, hdd =>
    ⟨s, dst, rfl, SameShape.refl s, hd, hdd, fun _ _ => rfl, fun d _ => ⟨fun h => by simp at h, fun _ => rfl⟩⟩
  | r :: rs, hsub, s, dst, hd, hdd => by
    obtain ⟨d1, e1, hr1, hc1, h1⟩ := copyRegion_spec hok ha hd hdd (hsub r (by simp))
    have hd1 : (s.setData l d1).data l = some d1 := by simp [CostMap.setData]
    have hdd1 : HasDims d1 sub := ⟨by rw [hr1]; exact hdd.1, by rw [hc1]; exact hdd.2⟩
    obtain ⟨s2, d2, e2, hs2, hd2, hdd2, ho2, h2⟩ :=
      copyRegions_spec hok ha rs (fun r' h' => hsub r' (by simp [h'])) hd1 hdd1
    refine ⟨s2, d2, ?_, (SameShape.setData hd hr1 hc1).trans hs2, hd2, hdd2, ?_, ?_⟩
    · simp only [Act.forEach, Act.bind, e1, e2]
    · intro l' hl'
      rw [ho2 l' hl']
      simp [CostMap.setData, hl']
    · intro d hdin
      obtain ⟨h2a, h2b⟩ := h2 d hdin
      obtain ⟨h1a, h1b⟩ := h1 d hdin
      by_cases hrs : ∃ r' ∈ rs, InDest sub r' d
      · refine ⟨fun _ => h2a hrs, fun hn => ?_⟩
        obtain ⟨r', hr', hin⟩ := hrs
        exact absurd ⟨r', by simp [hr'], hin⟩ hn
      · rw [h2b hrs]
        constructor
        · rintro ⟨r', hr', hin⟩
          rcases List.mem_cons.mp hr' with rfl | hr'
          · exact h1a hin
          · exact absurd ⟨r', hr', hin⟩ hrs
        · intro hn
          exact h1b fun hin => hn ⟨r, by simp, hin⟩

theorem copyLayers_spec {m : CostMap K} (hm : m.Coherent) {T sub : Idx} {regs : List BufferRegion}
    (hok : RegionsOk T sub m.size m.startIndex regs) : ∀ (ls : List String), (∀ l ∈ ls, l ∈ m.layers) →
    ∀ {s : CostMap K}, (∀ l ∈ m.layers, ∃ dst, s.data l = some dst ∧ HasDims dst sub) →
    ∃ s', Act.forEach (m.copyLayer regs) ls s = (.ok (), s') ∧ SameShape s s' ∧
      (∀ l, l ∉ ls → s'.data l = s.data l) ∧
      ∀ l ∈ ls, ∀ d : Idx, d.In sub → s'.at l d = m.at l (bufferIdx (T + d) m.size m.startIndex)
  | [], _, s, _ => ⟨s, rfl, SameShape.refl s, fun _ _ => rfl, fun l hl => by simp at hl⟩
  | l :: ls, hsub, s, hs => by
    obtain ⟨a, ha⟩ := Option.isSome_iff_exists.mp ((hm.mem_iff l).mp (hsub l (by simp)))
    have had : HasDims a m.size := hm.dims l a ha
    obtain ⟨dst, hd, hdd⟩ := hs l (hsub l (by simp))
    obtain ⟨s1, d1, e1, hs1, hd1, hdd1, ho1, h1⟩ := copyRegions_spec hok had regs (fun r h => h) hd hdd
    have hs1' : ∀ l' ∈ m.layers, ∃ dst, s1.data l' = some dst ∧ HasDims dst sub := by
      intro l' hl'
      by_cases he : l' = l
      · subst he; exact ⟨d1, hd1, hdd1⟩
      · rw [ho1 l' he]; exact hs l' hl'
    obtain ⟨s2, e2, hs2, ho2, h2⟩ := copyLayers_spec hm hok ls (fun l' h' => hsub l' (by simp [h'])) hs1'
    refine ⟨s2, ?_, hs1.trans hs2, ?_, ?_⟩
    · simp only [Act.forEach, Act.bind, copyLayer, ha, e1]
      exact e2
    · intro l' hl'
      rw [List.mem_cons, not_or] at hl'
      rw [ho2 l' hl'.2, ho1 l' hl'.1]
    · intro l' hl' d hdin
      by_cases hmem : l' ∈ ls
      · exact h2 l' hmem d hdin
      · have he : l' = l := (List.mem_cons.mp hl').resolve_right hmem
        subst he
        have hdat : s2.data l' = some d1 := by rw [ho2 l' hmem, hd1]
        rw [at_eq hdat, at_eq ha, (h1 d hdin).1 (hok.cover d hdin)]

theorem roundHalfAway_mul {n : Int} (hn : 0 < n) {r : K} (hr : 0 < r) : roundHalfAway ((n : K) * r / r) = n := by
  have hn' : (0 : K) < n := by exact_mod_cast hn
  rw [mul_div_assoc, div_self hr.ne', mul_one]
  unfold roundHalfAway
  rw [if_pos hn'.le, Int.floor_eq_iff]
  constructor <;> linarith

/-- A successful `getSubmap` returns a block of the parent's cells, holding the parent's costs; the caller's index
variable is left alone. -/
theorem getSubmap_spec {m : CostMap K} (h : m.Geo) (hm : m.Coherent) (pos len : Vec K) (idx : Idx) :
    (m.submapGeometry pos len = none ∧ m.getSubmap pos len idx = .ok (CostMap.new m.layers, idx, false)) ∨
    (∃ s, m.getSubmap pos len idx = .ok (s, idx, true) ∧
      (∃ info, m.submapGeometry pos len = some info) ∧
      let T := cornerCell m (reqHigh pos len)
      let sz := cornerCell m (reqLow pos len) - T + Idx.ones
      BlockOf m s T sz ∧ withinMap pos s.length s.position = true ∧ s.Coherent ∧
      s.layers = m.layers ∧ SameMeta m s ∧
      (∀ l ∈ m.layers, ∀ d : Idx, d.In sz → s.at l d = m.at l (bufferIdx (T + d) m.size m.startIndex))) := by
  cases hs : m.submapGeometry pos len with
  | none => left; refine ⟨rfl, ?_⟩; simp only [getSubmap, hs]
  | some info =>
    right
    obtain ⟨hT, hB, hx, hy, hw, hinfo⟩ := submapGeometry_some h hs
    set T := cornerCell m (reqHigh pos len) with hTd
    set sz := cornerCell m (reqLow pos len) - T + Idx.ones with hsz
    have hr := h.res_pos
    have szx : sz.x = (cornerCell m (reqLow pos len)).x - T.x + 1 := rfl
    have szy : sz.y = (cornerCell m (reqLow pos len)).y - T.y + 1 := rfl
    have hpx : 0 < sz.x := by omega
    have hpy : 0 < sz.y := by omega
    have hpx' : (0 : K) < sz.x := by exact_mod_cast hpx
    have hpy' : (0 : K) < sz.y := by exact_mod_cast hpy
    obtain ⟨t1, t2, t3, t4⟩ := hT
    obtain ⟨b1, b2, b3, b4⟩ := hB
    obtain ⟨regs, hreg, hok⟩ := bufferRegions_spec (sub := sz) h.start (u := T) ⟨t1, t2, t3, t4⟩ hpx hpy (by omega) (by omega)
    set s0 : CostMap K := ((((CostMap.new m.layers).setBasicLayers m.basicLayers).setTimestamp
      m.timestamp).setFrameId m.frameId) with hs0
    set s1 : CostMap K := { (s0.resize sz).clearAll with
      resolution := m.resolution, length := subLength m sz, position := subCenter m T sz, startIndex := 0 } with hs1
    have hset : setGeometry info.length m.resolution info.position s0 = (.ok (), s1) := by
      have p1 : 0 < (sz.x : K) * m.resolution := by positivity
      have p2 : 0 < (sz.y : K) * m.resolution := by positivity
      unfold setGeometry
      rw [hinfo]
      simp only [subLength, p1, p2, hr, not_true_eq_false, if_false, roundHalfAway_mul hpx hr, roundHalfAway_mul hpy hr]
      rfl
    have hs1c : s1.Coherent := by
      refine ⟨hm.nodup, ?_, ?_⟩
      · intro l
        simp only [hs1, hs0, CostMap.clearAll, CostMap.resize, CostMap.setFrameId, CostMap.setTimestamp,
          CostMap.setBasicLayers, CostMap.new, Option.isSome_map]
        split <;> simp [*]
      · intro l a ha
        simp only [hs1, hs0, CostMap.clearAll, CostMap.resize, CostMap.setFrameId, CostMap.setTimestamp,
          CostMap.setBasicLayers, CostMap.new, Option.map_map] at ha
        split at ha
        · simp only [Option.map_some, Option.some.injEq, Function.comp] at ha
          subst ha
          simp only [hs1, CostMap.clearAll, CostMap.resize, Mat.rows_setConstant, Mat.cols_setConstant, Mat.rows_const,
            Mat.cols_const]
          omega
        · simp at ha
    have hdims : ∀ l ∈ m.layers, ∃ dst, s1.data l = some dst ∧ HasDims dst sz := by
      intro l hl
      obtain ⟨a, ha⟩ := Option.isSome_iff_exists.mp ((hs1c.mem_iff l).mp hl)
      exact ⟨a, ha, hs1c.dims l a ha⟩
    obtain ⟨s, e, hshape, -, hat⟩ := copyLayers_spec hm hok m.layers (fun l h => h) hdims
    have e0 : s1.setStartIndex 0 = s1 := rfl
    have hsz1 : s1.size = sz := rfl
    have hst : info.startIndex = bufferIdx T m.size m.startIndex := by rw [hinfo]
    have hbo : BlockOf m s T sz := ⟨hpx, hpy, ⟨t1, t2, t3, t4⟩, by omega, by omega, hshape.geo.length,
      hshape.geo.position, hshape.geo.resolution, hshape.geo.size, hshape.geo.startIndex⟩
    refine ⟨s, ?_, ⟨info, rfl⟩, hbo, ?_, hshape.coherent hs1c, hshape.layers, ⟨hshape.info.frameId, hshape.info.timestamp, hshape.info.basicLayers⟩, hat⟩
    · simp only [getSubmap, hs]
      rw [← hs0, hset]
      simp only [e0, hsz1, hst, hreg, e]
    · rw [hbo.length, hbo.position]; exact hw

end geometry

end CostMapModel

import Verif.Lemmas.Shapes
import Verif.Lemmas.Access
import Mathlib.Algebra.Order.Floor.Ring

/-! # Bounding boxes of shapes, pulled back into the map -/

set_option linter.unusedSectionVars false

namespace CostMapModel
open CostMap
variable {K : Type} [Field K] [LinearOrder K] [IsStrictOrderedRing K] [FloorRing K]

theorem dblEpsilon_pos : (0 : K) < dblEpsilon := by unfold dblEpsilon; positivity

/-- The guard margin of one axis. -/
def eps1 (p : K) : K := 10 * dblEpsilon * max 1 |p|

theorem eps1_pos (p : K) : 0 < eps1 p := by
  unfold eps1
  have : (0:K) < max 1 |p| := lt_of_lt_of_le one_pos (le_max_left _ _)
  have := dblEpsilon_pos (K := K)
  positivity

theorem eps1_eq (p : K) : 10 * dblEpsilon * (if 1 < |p| then |p| else 1) = eps1 p := by
  unfold eps1
  split
  · rw [max_eq_right (le_of_lt ‹_›)]
  · rw [max_eq_left (not_lt.mp ‹_›)]

/-- The distance of the pulled-back position from the upper map border. -/
theorem bound1_cases (p len c : K) (_ : 0 < len) :
    (p ≤ c - len / 2 ∧ c + len / 2 - boundPosition1 p len c = len - eps1 p) ∨
    (c + len / 2 ≤ p ∧ c + len / 2 - boundPosition1 p len c = eps1 p) ∨
    (c - len / 2 < p ∧ p < c + len / 2 ∧ boundPosition1 p len c = p) := by
  unfold boundPosition1
  simp only [eps1_eq]
  by_cases h1 : p - c + 1 / 2 * len ≤ 0
  · left
    refine ⟨by linarith, ?_⟩
    rw [if_pos h1]; ring
  · right
    by_cases h2 : len ≤ p - c + 1 / 2 * len
    · left
      refine ⟨by linarith, ?_⟩
      rw [if_neg h1, if_pos h2]; ring
    · right
      refine ⟨by linarith, by linarith, ?_⟩
      rw [if_neg h1, if_neg h2]; ring

section axis
variable {n : Int} {r c p : K}

/-- Cell, counted from the upper border, of the pulled-back position. -/
def bcell (n : Int) (r c p : K) : Int := ⌊(c + (n : K) * r / 2 - boundPosition1 p ((n : K) * r) c) / r⌋

theorem bcell_range (hr : 0 < r) (hn : 0 < n) (he : eps1 p < r) : 0 ≤ bcell n r c p ∧ bcell n r c p < n := by
  have hn' : (1 : K) ≤ n := by exact_mod_cast hn
  have hnr : r ≤ (n : K) * r := by nlinarith
  have hep := eps1_pos p
  unfold bcell
  rw [← axis_inside_iff hr]
  rcases bound1_cases p ((n : K) * r) c (by linarith) with ⟨_, h⟩ | ⟨_, h⟩ | ⟨h1, h2, h⟩
  · rw [h]; constructor <;> linarith
  · rw [h]; constructor <;> linarith
  · rw [h]; constructor <;> linarith

theorem bcell_le (hr : 0 < r) (hn : 0 < n) (he : eps1 p < r) {k : Int} (hk : 0 ≤ k) (hk' : k < n)
    (h : c + (n : K) * r / 2 - r / 2 - r * k ≤ p) : bcell n r c p ≤ k := by
  have hn' : (1 : K) ≤ n := by exact_mod_cast hn
  have hk0 : (0 : K) ≤ k := by exact_mod_cast hk
  have hk1 : (k : K) + 1 ≤ n := by exact_mod_cast hk'
  have hep := eps1_pos p
  have hkr : 0 ≤ r * k := mul_nonneg hr.le hk0
  have hkn : r * (k + 1) ≤ (n : K) * r := by rw [mul_comm]; exact mul_le_mul_of_nonneg_right hk1 hr.le
  unfold bcell
  rw [← Int.lt_add_one_iff, Int.floor_lt, div_lt_iff₀ hr]
  push_cast
  rcases bound1_cases p ((n : K) * r) c (by nlinarith) with ⟨h1, _⟩ | ⟨_, h2⟩ | ⟨_, _, h2⟩
  · exfalso; linarith
  · rw [h2]; linarith
  · rw [h2]; linarith

theorem le_bcell (hr : 0 < r) (hn : 0 < n) (he : eps1 p < r) {k : Int} (hk : 0 ≤ k) (hk' : k < n)
    (h : p ≤ c + (n : K) * r / 2 - r / 2 - r * k) : k ≤ bcell n r c p := by
  have hn' : (1 : K) ≤ n := by exact_mod_cast hn
  have hk0 : (0 : K) ≤ k := by exact_mod_cast hk
  have hk1 : (k : K) + 1 ≤ n := by exact_mod_cast hk'
  have hep := eps1_pos p
  have hkr : 0 ≤ r * k := mul_nonneg hr.le hk0
  have hkn : r * (k + 1) ≤ (n : K) * r := by rw [mul_comm]; exact mul_le_mul_of_nonneg_right hk1 hr.le
  unfold bcell
  rw [Int.le_floor, le_div_iff₀ hr]
  rcases bound1_cases p ((n : K) * r) c (by nlinarith) with ⟨h1, h2⟩ | ⟨h1, _⟩ | ⟨_, _, h2⟩
  · rw [h2]; linarith
  · exfalso; linarith
  · rw [h2]; linarith

theorem bcell_mono (hr : 0 < r) (hn : 0 < n) {q : K} (he : eps1 p < r) (he' : eps1 q < r) (h : q ≤ p) :
    bcell n r c p ≤ bcell n r c q := by
  have hn' : (1 : K) ≤ n := by exact_mod_cast hn
  have hep := eps1_pos p
  have heq := eps1_pos q
  have hnr : r ≤ (n : K) * r := by nlinarith
  rcases bound1_cases p ((n : K) * r) c (by nlinarith) with ⟨h1, h2⟩ | ⟨h1, h2⟩ | ⟨h0, h1, h2⟩
  · rcases bound1_cases q ((n : K) * r) c (by nlinarith) with ⟨g1, g2⟩ | ⟨g1, g2⟩ | ⟨g0, g1, g2⟩
    · have e1 : bcell n r c q = n - 1 := by
        unfold bcell
        rw [g2, floor_div_eq_iff hr]; push_cast
        constructor <;> linarith
      rw [e1]
      have := (bcell_range (c := c) (p := p) hr hn he).2
      omega
    · exfalso; linarith
    · exfalso; linarith
  · have : bcell n r c p = 0 := by
      unfold bcell
      rw [h2, floor_div_eq_iff hr]; push_cast
      constructor <;> linarith
    rw [this]; exact (bcell_range hr hn he').1
  · rcases bound1_cases q ((n : K) * r) c (by nlinarith) with ⟨g1, g2⟩ | ⟨g1, g2⟩ | ⟨g0, g1, g2⟩
    · have e1 : bcell n r c q = n - 1 := by
        unfold bcell
        rw [g2, floor_div_eq_iff hr]; push_cast
        constructor <;> linarith
      rw [e1]
      have := (bcell_range (c := c) (p := p) hr hn he).2
      omega
    · exfalso; linarith
    · unfold bcell
      rw [h2, g2]
      apply Int.floor_le_floor
      exact div_le_div_of_nonneg_right (by linarith) hr.le

end axis

/-- Logical cell of a corner pulled back into the map. -/
def cornerCell (m : CostMap K) (p : Vec K) : Idx := m.cellU (boundPosition p m.length m.position)

theorem cornerCell_eq {m : CostMap K} (h : m.Geo) (p : Vec K) :
    cornerCell m p = ⟨bcell m.size.x m.resolution m.position.x p.x,
      bcell m.size.y m.resolution m.position.y p.y⟩ := by
  simp only [cornerCell, cellU, boundPosition, bcell, h.len_x, h.len_y]

theorem cornerCell_in {m : CostMap K} (h : m.Geo) {p : Vec K} (he : EpsOk m p) :
    (cornerCell m p).In m.size := by
  rw [cornerCell_eq h]
  have hx := bcell_range (c := m.position.x) h.res_pos h.size_x he.1
  have hy := bcell_range (c := m.position.y) h.res_pos h.size_y he.2
  exact ⟨hx.1, hx.2, hy.1, hy.2⟩

/-- The buffer index of a corner pulled back into the map. -/
theorem corner_index {m : CostMap K} (h : m.Geo) {p : Vec K} (he : EpsOk m p) :
    m.getIndex (boundPosition p m.length m.position) = (bufferIdx (cornerCell m p) m.size m.startIndex, true) := by
  have hin : m.isInside (boundPosition p m.length m.position) = true := by
    rw [isInside_iff h]; exact cornerCell_in h he
  exact getIndex_eq h hin

/-- Every cell whose centre is in the box lies between the corner cells. -/
theorem between_corners {m : CostMap K} (h : m.Geo) {tl br : Vec K} (htl : EpsOk m tl) (hbr : EpsOk m br)
    {u : Idx} (hu : u.In m.size)
    (hx : br.x ≤ (m.center u).x ∧ (m.center u).x ≤ tl.x) (hy : br.y ≤ (m.center u).y ∧ (m.center u).y ≤ tl.y) :
    (cornerCell m tl).x ≤ u.x ∧ u.x ≤ (cornerCell m br).x ∧
    (cornerCell m tl).y ≤ u.y ∧ u.y ≤ (cornerCell m br).y := by
  obtain ⟨u1, u2, u3, u4⟩ := hu
  rw [cornerCell_eq h, cornerCell_eq h]
  simp only [center, h.len_x, h.len_y] at hx hy
  exact ⟨bcell_le h.res_pos h.size_x htl.1 u1 u2 hx.2, le_bcell h.res_pos h.size_x hbr.1 u1 u2 hx.1,
    bcell_le h.res_pos h.size_y htl.2 u3 u4 hy.2, le_bcell h.res_pos h.size_y hbr.2 u3 u4 hy.1⟩

theorem corners_le {m : CostMap K} (h : m.Geo) {tl br : Vec K} (htl : EpsOk m tl) (hbr : EpsOk m br)
    (hx : br.x ≤ tl.x) (hy : br.y ≤ tl.y) :
    (cornerCell m tl).x ≤ (cornerCell m br).x ∧ (cornerCell m tl).y ≤ (cornerCell m br).y := by
  rw [cornerCell_eq h, cornerCell_eq h]
  exact ⟨bcell_mono h.res_pos h.size_x htl.1 hbr.1 hx, bcell_mono h.res_pos h.size_y htl.2 hbr.2 hy⟩

/-- Iterating a bounding box and keeping the cells inside a shape that fits the box enumerates exactly the
cells inside the shape. -/
theorem box_enumerates {m : CostMap K} (h : m.Geo) (shape : Vec K → Bool) {tl br : Vec K}
    (htl : EpsOk m tl) (hbr : EpsOk m br) (hx : br.x ≤ tl.x) (hy : br.y ≤ tl.y)
    (hshape : ∀ p, shape p = true → (br.x ≤ p.x ∧ p.x ≤ tl.x) ∧ (br.y ≤ p.y ∧ p.y ≤ tl.y)) :
    ∃ it xs, ShapeIter.newWith m shape (bufferIdx (cornerCell m tl) m.size m.startIndex)
        (cornerCell m br - cornerCell m tl + Idx.ones) = .ok it ∧
      Visits ShapeIter.ops it xs ∧
      Enumerates xs (fun i => ∃ p, m.getPosition i = some p ∧ shape p = true) := by
  classical
  have hT := cornerCell_in h htl
  have hB := cornerCell_in h hbr
  have hle := corners_le h htl hbr hx hy
  set T := cornerCell m tl with hTd
  set B := cornerCell m br with hBd
  set sz := B - T + Idx.ones with hsz
  have hsx : sz.x = B.x - T.x + 1 := rfl
  have hsy : sz.y = B.y - T.y + 1 := rfl
  have hv := submapIter_visits_fst (submapIter_visits h.start (bufferIdx_in hT h.start)
    (sz := sz) (by omega) (by omega))
  rw [unwrap_buffer hT h.start, List.map_map] at hv
  set f : Idx → Idx := fun u => bufferIdx (T + u) m.size m.startIndex with hf
  have hfe : (Prod.fst ∘ fun u => (bufferIdx (T + u) m.size m.startIndex, u)) = f := rfl
  rw [hfe] at hv
  have hTu : ∀ u ∈ rowMajor sz, (T + u).In m.size := by
    intro u hu
    rw [mem_rowMajor] at hu
    obtain ⟨u1, u2, u3, u4⟩ := hu
    obtain ⟨t1, t2, t3, t4⟩ := hT
    obtain ⟨b1, b2, b3, b4⟩ := hB
    refine ⟨?_, ?_, ?_, ?_⟩ <;> simp only [Idx.add_x, Idx.add_y] <;> omega
  set P : Idx → Bool := fun i => match m.getPosition i with
    | some p => shape p
    | none => false with hPdef
  obtain ⟨it, h1, h2⟩ := ShapeIter.newWith_visits m shape (bufferIdx T m.size m.startIndex) sz P hv
    (by rw [List.length_map, rowMajor_length]; omega) (by
      intro i hi
      obtain ⟨u, hu, rfl⟩ := List.mem_map.mp hi
      refine ⟨_, getPosition_eq (bufferIdx_in (hTu u hu) h.start), ?_⟩
      simp only [hPdef]
      rw [getPosition_eq (bufferIdx_in (hTu u hu) h.start)])
  refine ⟨it, _, h1, h2, ?_, ?_⟩
  · apply List.Nodup.filter
    refine List.Nodup.map_on ?_ (rowMajor_nodup sz)
    intro u hu v hv' huv
    have := congrArg (fun i => unwrapIdx i m.size m.startIndex) huv
    simp only [hf] at this
    rw [unwrap_buffer (hTu u hu) h.start, unwrap_buffer (hTu v hv') h.start] at this
    have e1 := congrArg Idx.x this
    have e2 := congrArg Idx.y this
    simp only [Idx.add_x, Idx.add_y] at e1 e2
    exact Idx.ext (by omega) (by omega)
  · intro i
    rw [List.mem_filter]
    constructor
    · rintro ⟨hi, hPi⟩
      simp only [hPdef] at hPi
      split at hPi
      · exact ⟨_, by assumption, hPi⟩
      · cases hPi
    · rintro ⟨p, hp, hsp⟩
      have hi : i.In m.size := by
        by_contra hn; rw [getPosition_none hn] at hp; cases hp
      refine ⟨?_, by simp only [hPdef]; rw [hp]; exact hsp⟩
      rw [getPosition_eq hi] at hp
      cases hp
      obtain ⟨hbx, hby⟩ := hshape _ hsp
      have hui := unwrapIdx_in hi h.start
      obtain ⟨q1, q2, q3, q4⟩ := between_corners h htl hbr hui hbx hby
      rw [← hTd] at q1 q3
      rw [← hBd] at q2 q4
      rw [List.mem_map]
      refine ⟨unwrapIdx i m.size m.startIndex - T, ?_, ?_⟩
      · rw [mem_rowMajor]
        refine ⟨?_, ?_, ?_, ?_⟩ <;> simp only [Idx.sub_x, Idx.sub_y] <;> omega
      · simp only [hf]
        have : T + (unwrapIdx i m.size m.startIndex - T) = unwrapIdx i m.size m.startIndex := by
          ext <;> simp
        rw [this, buffer_unwrap hi h.start]

end CostMapModel

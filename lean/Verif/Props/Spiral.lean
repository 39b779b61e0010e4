import Verif.Lemmas.Spiral
import Verif.Props.Geometry

/-!
# SpiralIterator: C22, C23, C63
-/

set_option linter.unusedSectionVars false

namespace CostMapModel
open CostMap
variable {K : Type} [Field K] [LinearOrder K] [IsStrictOrderedRing K] [FloorRing K]

/-! ## C22 -/

/-- C22. The walk around ring `d` ends and goes through exactly the integer offsets whose length rounds down
to `d`, each once. -/
theorem C22_ring_is_annulus (d : Nat) (hd : 1 ≤ d) :
    ∃ os, ringOffsets d = some os ∧ os.Nodup ∧ ∀ o : Idx, o ∈ os ↔ InAnnulus d o :=
  ringOffsets_spec hd

/-- C22. Every offset belongs to exactly one annulus, so rings never share a cell. -/
theorem C22_rings_partition (o : Idx) : ∃! d, InAnnulus d o := by
  obtain ⟨d, hd⟩ := SpiralIter.annulus_exists o
  exact ⟨d, hd, fun e he => SpiralIter.annulus_unique he hd⟩

example : ringOffsets 2 = some [⟨2, 0⟩, ⟨2, 1⟩, ⟨2, 2⟩, ⟨1, 2⟩, ⟨0, 2⟩, ⟨-1, 2⟩, ⟨-2, 2⟩, ⟨-2, 1⟩, ⟨-2, 0⟩, ⟨-2, -1⟩,
    ⟨-2, -2⟩, ⟨-1, -2⟩, ⟨0, -2⟩, ⟨1, -2⟩, ⟨2, -2⟩, ⟨2, -1⟩] := by decide +kernel

/-! ## C23 -/

/-- The number of rings the iterator walks. -/
def spiralRings (m : CostMap K) (radius : K) : Nat := ⌈radius / m.resolution⌉.toNat

/-- Every ring before the last contributes a cell: it has a cell on the map, for the last but one a cell within the
radius. -/
def RingsReach (m : CostMap K) (center : Vec K) (radius : K) : Prop :=
  ∀ d, 1 ≤ d → d < spiralRings m radius → ∃ i p, m.getPosition i = some p ∧
    InAnnulus d (i - (m.getIndex center).1) ∧ (d + 1 = spiralRings m radius → dist2 p center ≤ radius ^ 2)

/-- The iterator the constructor makes for a centre inside the map. -/
def spiralInit (m : CostMap K) (center : Vec K) (radius : K) : SpiralIter K :=
  { center := center, indexCenter := (m.getIndex center).1, radiusSquare := radius * radius,
    nRings := spiralRings m radius, distance := 0, points := [(m.getIndex center).1], length := m.length,
    position := m.position, resolution := m.resolution, size := m.size }

theorem spiral_new {m : CostMap K} (h : m.Geo) {center : Vec K} (hc : m.isInside center = true) {radius : K}
    (hr : 0 ≤ radius) : SpiralIter.new m center radius = .ok (spiralInit m center radius) := by
  have hn : ¬ ⌈radius / m.resolution⌉ < 0 :=
    not_lt.mpr (Int.ceil_nonneg (div_nonneg hr h.res_pos.le))
  have hin : inRange (m.getIndex center).1 m.size = true := by
    rw [getIndex_fst h hc]
    exact inRange_iff.mpr (bufferIdx_in ((isInside_iff h center).mp hc) h.start)
  unfold SpiralIter.new
  simp only [if_neg hn, hin, if_true]
  rfl

theorem spiral_keeps {m : CostMap K} (h0 : m.startIndex = 0) (center : Vec K) (radius : K) (d : Nat) (i : Idx) :
    (spiralInit m center radius).keeps d (i - (spiralInit m center radius).indexCenter) = true ↔
      ∃ p, m.getPosition i = some p ∧
        ((d = spiralRings m radius ∨ d + 1 = spiralRings m radius) → dist2 p center ≤ radius ^ 2) := by
  have e : i - (spiralInit m center radius).indexCenter + (spiralInit m center radius).indexCenter = i := by
    ext <;> simp
  unfold SpiralIter.keeps
  simp only [e]
  have hpos : positionFromIndex i m.length m.position m.resolution m.size 0 = m.getPosition i := by
    rw [← h0]; rfl
  by_cases hi : i.In m.size
  · have hp := getPosition_eq (m := m) hi
    have hin : inRange i (spiralInit m center radius).size = true := inRange_iff.mpr hi
    have hins : (spiralInit m center radius).isInside i =
        decide (dist2 (m.center (unwrapIdx i m.size m.startIndex)) center ≤ radius ^ 2) := by
      simp only [SpiralIter.isInside, spiralInit, hpos, hp, dist2, sq radius]
      congr
    rw [hin, hins, hp]
    simp only [Bool.true_and]
    have hn : (spiralInit m center radius).nRings = spiralRings m radius := rfl
    rw [hn]
    split
    · rename_i hd
      simp [hd]
    · rename_i hd
      simp [hd]
  · have hin : inRange i (spiralInit m center radius).size = false := by
      rw [Bool.eq_false_iff]; exact fun hh => hi (inRange_iff.mp hh)
    rw [hin, getPosition_none hi]
    simp

theorem annulus_self (c : Idx) : InAnnulus 0 (c - c) := by
  constructor <;> simp

/-- What the spiral visits, for a map whose buffer was never rotated. -/
theorem spiral_visits {m : CostMap K} (h : m.Geo) (h0 : m.startIndex = 0) {center : Vec K}
    (hc : m.isInside center = true) {radius : K} (hr : 0 ≤ radius) (hrings : RingsReach m center radius) :
    ∃ it xs, SpiralIter.new m center radius = .ok it ∧ Visits SpiralIter.ops it xs ∧ xs.Nodup ∧
      xs.Pairwise (fun i j => ∀ d e, InAnnulus d (i - (m.getIndex center).1) →
        InAnnulus e (j - (m.getIndex center).1) → d ≤ e) ∧
      (∀ i, i ∈ xs ↔ i = (m.getIndex center).1 ∨ ∃ d p, 1 ≤ d ∧ d ≤ spiralRings m radius ∧
        InAnnulus d (i - (m.getIndex center).1) ∧ m.getPosition i = some p ∧
        ((d = spiralRings m radius ∨ d + 1 = spiralRings m radius) → dist2 p center ≤ radius ^ 2)) := by
  set it := spiralInit m center radius with hit
  have hmem : ∀ d, 1 ≤ d → ∀ i, i ∈ it.ringCells d ↔ InAnnulus d (i - (m.getIndex center).1) ∧
      ∃ p, m.getPosition i = some p ∧
        ((d = spiralRings m radius ∨ d + 1 = spiralRings m radius) → dist2 p center ≤ radius ^ 2) := by
    intro d hd i
    rw [SpiralIter.mem_ringCells it hd, hit, spiral_keeps h0]
    rfl
  have hv := SpiralIter.visits_spiral it it.nRings 0 [(m.getIndex center).1] (by omega) (Or.inl (by simp)) (by
    intro d h1 h2 he
    obtain ⟨i, p, hp, ha, hd⟩ := hrings d h1 h2
    have : i ∈ it.ringCells d := (hmem d h1 i).mpr ⟨ha, p, hp, by
      rintro (h3 | h3)
      · exact absurd h3 (by have : d < spiralRings m radius := h2; omega)
      · exact hd h3⟩
    rw [he] at this; cases this)
  have hat : it.at' 0 [(m.getIndex center).1] = it := rfl
  rw [hat] at hv
  have hpw : ([(m.getIndex center).1] ++ (List.range' (0 + 1) it.nRings).flatMap it.ringCells).Pairwise
      (fun i j => (∀ d e, InAnnulus d (i - (m.getIndex center).1) →
        InAnnulus e (j - (m.getIndex center).1) → d ≤ e) ∧ i ≠ j) := by
    rw [List.singleton_append, List.pairwise_cons]
    constructor
    · intro j hj
      obtain ⟨d, hd, hjd⟩ := List.mem_flatMap.mp hj
      rw [List.mem_range'_1] at hd
      have ha := ((hmem d (by omega) j).mp hjd).1
      constructor
      · intro d' e' h1 _
        rw [SpiralIter.annulus_unique h1 (annulus_self _)]; omega
      · intro he
        rw [← he] at ha
        have := SpiralIter.annulus_unique ha (annulus_self _)
        omega
    · rw [List.pairwise_flatMap]
      constructor
      · intro d hd
        rw [List.mem_range'_1] at hd
        have nd := SpiralIter.ringCells_nodup it (d := d) (by omega)
        refine List.Pairwise.imp_of_mem ?_ nd
        intro a b ha hb hab
        refine ⟨?_, hab⟩
        intro d' e' h1 h2
        rw [SpiralIter.annulus_unique h1 ((hmem d (by omega) a).mp ha).1,
          SpiralIter.annulus_unique h2 ((hmem d (by omega) b).mp hb).1]
      · refine List.Pairwise.imp_of_mem ?_ (List.pairwise_lt_range' 1 (by omega))
        intro d e hd he hlt x hx y hy
        rw [List.mem_range'_1] at hd he
        have ax := ((hmem d (by omega) x).mp hx).1
        have ay := ((hmem e (by omega) y).mp hy).1
        constructor
        · intro d' e' h1 h2
          rw [SpiralIter.annulus_unique h1 ax, SpiralIter.annulus_unique h2 ay]; omega
        · intro hxy
          rw [hxy] at ax
          have := SpiralIter.annulus_unique ax ay
          omega
  refine ⟨it, _, spiral_new h hc hr, hv, hpw.imp (fun h => h.2), hpw.imp (fun h => h.1), ?_⟩
  intro i
  rw [List.singleton_append, List.mem_cons, List.mem_flatMap]
  constructor
  · rintro (rfl | ⟨d, hd, hi⟩)
    · exact Or.inl rfl
    · rw [List.mem_range'_1] at hd
      obtain ⟨ha, p, hp, hdist⟩ := (hmem d (by omega) i).mp hi
      have hn : it.nRings = spiralRings m radius := rfl
      exact Or.inr ⟨d, p, by omega, by omega, ha, hp, hdist⟩
  · rintro (rfl | ⟨d, p, h1, h2, ha, hp, hdist⟩)
    · exact Or.inl rfl
    · have hn : it.nRings = spiralRings m radius := rfl
      exact Or.inr ⟨d, by rw [List.mem_range'_1]; omega, (hmem d h1 i).mpr ⟨ha, p, hp, hdist⟩⟩

/-- The vector from the centre of the circle to the centre of a cell: the offset of the cell from the central
cell, and the offset inside the central cell, which is at most half a cell on each axis. -/
theorem spiral_offset {m : CostMap K} (h : m.Geo) (h0 : m.startIndex = 0) {center : Vec K}
    (hc : m.isInside center = true) :
    ∃ ex ey : K, -(m.resolution / 2) ≤ ex ∧ ex ≤ m.resolution / 2 ∧ -(m.resolution / 2) ≤ ey ∧
      ey ≤ m.resolution / 2 ∧ ∀ u : Idx,
        (m.center u).x - center.x = ex - m.resolution * ((u - (m.getIndex center).1).x : K) ∧
        (m.center u).y - center.y = ey - m.resolution * ((u - (m.getIndex center).1).y : K) := by
  have e : (m.getIndex center).1 = m.cellU center := by
    rw [getIndex_fst h hc, h0]; simp [bufferIdx]
  have hsq := (cellU_eq_iff h center (m.cellU center)).mp rfl
  obtain ⟨⟨a1, a2⟩, b1, b2⟩ := hsq
  refine ⟨(m.center (m.cellU center)).x - center.x, (m.center (m.cellU center)).y - center.y, by linarith,
    by linarith, by linarith, by linarith, ?_⟩
  intro u
  rw [e]
  constructor
  · simp only [CostMap.center, Idx.sub_x]; push_cast; ring
  · simp only [CostMap.center, Idx.sub_y]; push_cast; ring

theorem ceil_bounds {r res : K} (hr : 0 ≤ r) (hres : 0 < res) :
    let n := (⌈r / res⌉.toNat : Nat)
    r ≤ (n : K) * res ∧ ∀ d : Nat, d < n → (d : K) * res < r := by
  intro n
  have hc : 0 ≤ ⌈r / res⌉ := Int.ceil_nonneg (div_nonneg hr hres.le)
  have hn : ((n : Nat) : Int) = ⌈r / res⌉ := Int.toNat_of_nonneg hc
  constructor
  · have := Int.le_ceil (r / res)
    rw [div_le_iff₀ hres] at this
    rw [← hn] at this
    exact_mod_cast this
  · intro d hd
    have : (d : Int) < ⌈r / res⌉ := by omega
    have := Int.lt_ceil.mp this
    rw [lt_div_iff₀ hres] at this
    exact_mod_cast this

/-- A cell within the radius is in one of the walked rings. -/
theorem ring_le_of_dist {res ex ey r : K} {n d : Nat} {x y : Int} (hres : 0 < res) (h1 : -(res / 2) ≤ ex)
    (h2 : ex ≤ res / 2) (h3 : -(res / 2) ≤ ey) (h4 : ey ≤ res / 2) (hr : 0 ≤ r) (hn : r ≤ n * res)
    (hd : InAnnulus d ⟨x, y⟩) (hdist : (ex - res * x) ^ 2 + (ey - res * y) ^ 2 ≤ r ^ 2) : d ≤ n := by
  by_contra hc
  have hd1 := hd.1
  have hnd : ((n : Int) + 1) ^ 2 ≤ x ^ 2 + y ^ 2 := by
    have : (n : Int) + 1 ≤ d := by omega
    simp only at hd1
    nlinarith
  have hndK : ((n : K) + 1) ^ 2 ≤ (x : K) ^ 2 + (y : K) ^ 2 := by exact_mod_cast hnd
  -- v = res * (x, y), w = e - v, |w|² ≤ n² res², |e|² ≤ res²/2
  set a := ex - res * x with ha
  set b := ey - res * y with hb
  have hw : a ^ 2 + b ^ 2 ≤ (n : K) ^ 2 * res ^ 2 := by
    have : r ^ 2 ≤ (n * res) ^ 2 := pow_le_pow_left₀ hr hn 2
    calc a ^ 2 + b ^ 2 ≤ r ^ 2 := hdist
      _ ≤ _ := this
      _ = _ := by ring
  have hex : ex ^ 2 ≤ res ^ 2 / 4 := by nlinarith
  have hey : ey ^ 2 ≤ res ^ 2 / 4 := by nlinarith
  have hv : (res * x) ^ 2 + (res * y) ^ 2 = (ex - a) ^ 2 + (ey - b) ^ 2 := by rw [ha, hb]; ring
  have hv2 : ((n : K) + 1) ^ 2 * res ^ 2 ≤ (ex - a) ^ 2 + (ey - b) ^ 2 := by
    rw [← hv]
    have : ((n : K) + 1) ^ 2 * res ^ 2 ≤ ((x : K) ^ 2 + (y : K) ^ 2) * res ^ 2 :=
      mul_le_mul_of_nonneg_right hndK (sq_nonneg res)
    linarith [this, mul_pow res (x : K) 2, mul_pow res (y : K) 2]
  rcases Nat.eq_zero_or_pos n with hn0 | hn0
  · subst hn0
    simp only [Nat.cast_zero] at hw hv2
    have hw0 : a ^ 2 + b ^ 2 ≤ 0 := by simpa using hw
    have ha2 : a ^ 2 = 0 := le_antisymm (by linarith [sq_nonneg b]) (sq_nonneg a)
    have hb2 : b ^ 2 = 0 := le_antisymm (by linarith [sq_nonneg a]) (sq_nonneg b)
    have ha0 : a = 0 := by simpa using ha2
    have hb0 : b = 0 := by simpa using hb2
    rw [ha0, hb0] at hv2
    have hr2 : 0 < res ^ 2 := by positivity
    have hv3 : res ^ 2 ≤ ex ^ 2 + ey ^ 2 := by simpa using hv2
    linarith
  · have hnK : (1 : K) ≤ n := by exact_mod_cast hn0
    -- n * (-2 e·w) ≤ |w|² + n² |e|²
    have hcs : (n : K) * (-2 * (ex * a + ey * b)) ≤ (a ^ 2 + b ^ 2) + (n : K) ^ 2 * (ex ^ 2 + ey ^ 2) := by
      have s1 := sq_nonneg ((n : K) * ex + a)
      have s2 := sq_nonneg ((n : K) * ey + b)
      have e : (a ^ 2 + b ^ 2) + (n : K) ^ 2 * (ex ^ 2 + ey ^ 2) - (n : K) * (-2 * (ex * a + ey * b)) =
        ((n : K) * ex + a) ^ 2 + ((n : K) * ey + b) ^ 2 := by ring
      linarith
    have hr2 : 0 < res ^ 2 := by positivity
    have hexp : (ex - a) ^ 2 + (ey - b) ^ 2 = (ex ^ 2 + ey ^ 2) + (a ^ 2 + b ^ 2) + -2 * (ex * a + ey * b) := by ring
    rw [hexp] at hv2
    have hE : ex ^ 2 + ey ^ 2 ≤ res ^ 2 / 2 := by linarith
    -- multiply hv2 by n
    have h5 : (n : K) * (((n : K) + 1) ^ 2 * res ^ 2) ≤
        n * (ex ^ 2 + ey ^ 2) + n * (a ^ 2 + b ^ 2) + ((a ^ 2 + b ^ 2) + (n : K) ^ 2 * (ex ^ 2 + ey ^ 2)) := by
      have := mul_le_mul_of_nonneg_left hv2 (by linarith : (0 : K) ≤ n)
      linarith [this, hcs]
    have h6 : (n : K) * (ex ^ 2 + ey ^ 2) ≤ n * (res ^ 2 / 2) := mul_le_mul_of_nonneg_left hE (by linarith)
    have h7 : (n : K) ^ 2 * (ex ^ 2 + ey ^ 2) ≤ n ^ 2 * (res ^ 2 / 2) := mul_le_mul_of_nonneg_left hE (sq_nonneg _)
    have h8 : (n : K) * (a ^ 2 + b ^ 2) ≤ n * ((n : K) ^ 2 * res ^ 2) := mul_le_mul_of_nonneg_left hw (by linarith)
    have h9 : (n : K) * (((n : K) + 1) ^ 2 * res ^ 2) ≤
        n * (res ^ 2 / 2) + n * ((n : K) ^ 2 * res ^ 2) + (n : K) ^ 2 * res ^ 2 + n ^ 2 * (res ^ 2 / 2) := by linarith
    have h10 : 0 < (n : K) * res ^ 2 * (1 / 2 + n / 2) := by positivity
    have h11 : (n : K) * (((n : K) + 1) ^ 2 * res ^ 2) -
        (n * (res ^ 2 / 2) + n * ((n : K) ^ 2 * res ^ 2) + (n : K) ^ 2 * res ^ 2 + n ^ 2 * (res ^ 2 / 2)) =
        (n : K) * res ^ 2 * (1 / 2 + n / 2) := by ring
    linarith

/-- C23 (partial: maps whose buffer was never rotated, and circles for which every ring before the last has a
cell to visit; false otherwise, see `C23_false_on_small_map` and `C23_false_on_moved_map`). The loop
ends without undefined behaviour, visits no cell twice, only visits cells of the map, in the order of
the rings, and visits every cell whose centre is within the radius. -/
theorem C23_spiral_partial {m : CostMap K} (h : m.Geo) (h0 : m.startIndex = 0) {center : Vec K}
    (hc : m.isInside center = true) {radius : K} (hr : 0 ≤ radius) (hrings : RingsReach m center radius) :
    ∃ it xs, SpiralIter.new m center radius = .ok it ∧ Visits SpiralIter.ops it xs ∧ xs.Nodup ∧
      (∀ i ∈ xs, i.In m.size) ∧
      (∀ i p, m.getPosition i = some p → dist2 p center ≤ radius ^ 2 → i ∈ xs) ∧
      xs.Pairwise (fun i j => ∀ d e, InAnnulus d (i - (m.getIndex center).1) →
        InAnnulus e (j - (m.getIndex center).1) → d ≤ e) := by
  obtain ⟨it, xs, h1, h2, h3, h4, h5⟩ := spiral_visits h h0 hc hr hrings
  have hcin : (m.getIndex center).1.In m.size := by
    rw [getIndex_fst h hc]; exact bufferIdx_in ((isInside_iff h center).mp hc) h.start
  refine ⟨it, xs, h1, h2, h3, ?_, ?_, h4⟩
  · intro i hi
    rcases (h5 i).mp hi with rfl | ⟨d, p, -, -, -, hp, -⟩
    · exact hcin
    · by_contra hn; rw [getPosition_none hn] at hp; cases hp
  · intro i p hp hdist
    obtain ⟨d, hd⟩ := SpiralIter.annulus_exists (i - (m.getIndex center).1)
    rcases Nat.eq_zero_or_pos d with hd0 | hd0
    · subst hd0
      have := SpiralIter.annulus_zero hd
      refine (h5 i).mpr (Or.inl ?_)
      have e1 := congrArg Idx.x this
      have e2 := congrArg Idx.y this
      simp only [Idx.sub_x, Idx.sub_y, Idx.zero_x, Idx.zero_y] at e1 e2
      exact Idx.ext (by omega) (by omega)
    · have hi : i.In m.size := by
        by_contra hn; rw [getPosition_none hn] at hp; cases hp
      have hp' := hp
      rw [getPosition_eq hi, h0] at hp'
      cases hp'
      obtain ⟨ex, ey, e1, e2, e3, e4, hoff⟩ := spiral_offset h h0 hc
      obtain ⟨o1, o2⟩ := hoff i
      have hu : unwrapIdx i m.size 0 = i := by simp [unwrapIdx]
      have hdist' : (ex - m.resolution * ((i - (m.getIndex center).1).x : K)) ^ 2 +
          (ey - m.resolution * ((i - (m.getIndex center).1).y : K)) ^ 2 ≤ radius ^ 2 := by
        rw [← o1, ← o2]
        rw [hu] at hdist
        exact hdist
      have hle := ring_le_of_dist h.res_pos e1 e2 e3 e4 hr (ceil_bounds hr h.res_pos).1
        (x := (i - (m.getIndex center).1).x) (y := (i - (m.getIndex center).1).y) hd hdist'
      exact (h5 i).mpr (Or.inr ⟨d, _, hd0, hle, hd, hp, fun _ => hdist⟩)

theorem visits_spiral_none {it : SpiralIter K} {d : Nat} (hd : d < it.nRings) (he : it.ringCells d = [])
    (hmin : ∀ e, 0 < e → e < d → it.ringCells e ≠ []) {s : SpiralIter K} {xs : List Idx} (hv : Visits SpiralIter.ops s xs) :
    ∀ k ps, s = it.at' k ps → (k < d ∧ ps ≠ []) ∨ (k = d ∧ ps = []) → False := by
  induction hv with
  | done hp =>
    rintro k ps rfl hk
    simp only [SpiralIter.ops, SpiralIter.isPastEnd, SpiralIter.at', Bool.and_eq_true, decide_eq_true_eq] at hp
    omega
  | step hp hdr hn _ ih =>
    rintro k ps rfl (⟨hk, hps⟩ | ⟨rfl, rfl⟩)
    · cases ps with
      | nil => exact hps rfl
      | cons p ps =>
        have hne : ¬ k = it.nRings := by omega
        cases ps with
        | nil =>
          have hg := SpiralIter.generateRing_at' it k
          simp only [SpiralIter.ops, SpiralIter.next, SpiralIter.at', SpiralIter.isPastEnd, hne, decide_false,
            List.isEmpty_nil, Bool.false_and, Bool.not_false, Bool.and_self, if_true] at hn
          simp only [SpiralIter.at'] at hg
          rw [hg] at hn
          cases hn
          refine ih (k + 1) (it.ringCells (k + 1)) rfl ?_
          by_cases hkd : k + 1 = d
          · exact Or.inr ⟨hkd, by rw [hkd]; exact he⟩
          · exact Or.inl ⟨by omega, hmin (k + 1) (by omega) (by omega)⟩
        | cons q qs =>
          simp only [SpiralIter.ops, SpiralIter.next, SpiralIter.at', List.isEmpty_cons, Bool.false_and, Bool.false_eq_true,
            if_false] at hn
          cases hn
          exact ih k (q :: qs) rfl (Or.inl ⟨hk, by simp⟩)
    · simp [SpiralIter.ops, SpiralIter.deref, SpiralIter.at', Res.ofOption] at hdr

/-- C23. The condition of `C23_spiral_partial` on the rings is exact: the loop ends normally if and only if every ring before the
last has a cell to visit. Otherwise it dereferences an empty vector. -/
theorem C23_ends_iff {m : CostMap K} (h : m.Geo) (h0 : m.startIndex = 0) {center : Vec K} (hc : m.isInside center = true)
    {radius : K} (hr : 0 ≤ radius) :
    ∃ it, SpiralIter.new m center radius = .ok it ∧
      ((∃ xs, Visits SpiralIter.ops it xs) ↔ RingsReach m center radius) := by
  refine ⟨_, spiral_new h hc hr, ?_⟩
  constructor
  · rintro ⟨xs, hv⟩ d hd hdn
    have key : (spiralInit m center radius).ringCells d ≠ [] := by
      induction d using Nat.strong_induction_on with
      | _ d ih =>
        intro he
        exact visits_spiral_none hdn he (fun e h1 h2 => ih e h2 h1 (by omega)) hv 0 [(m.getIndex center).1] rfl
          (Or.inl ⟨hd, by simp⟩)
    obtain ⟨i, hi⟩ := List.exists_mem_of_ne_nil _ key
    rw [SpiralIter.mem_ringCells _ hd, spiral_keeps h0] at hi
    obtain ⟨ha, p, hp, hin⟩ := hi
    exact ⟨i, p, hp, ha, fun e => hin (Or.inr e)⟩
  · intro hrings
    obtain ⟨it, xs, h1, h2, -⟩ := spiral_visits h h0 hc hr hrings
    rw [spiral_new h hc hr] at h1
    cases h1
    exact ⟨xs, h2⟩

/-- A circle that lies inside the map meets the condition of `C23_spiral_partial`. -/
theorem ringsReach_of_fits {m : CostMap K} (h : m.Geo) (h0 : m.startIndex = 0) {center : Vec K}
    (hc : m.isInside center = true) {radius : K} (hr : 0 ≤ radius)
    (hfit : ∀ p, dist2 p center ≤ radius ^ 2 → m.isInside p = true) : RingsReach m center radius := by
  intro d hd hdn
  obtain ⟨ex, ey, e1, e2, e3, e4, hoff⟩ := spiral_offset h h0 hc
  have hlt := (ceil_bounds hr h.res_pos).2 d hdn
  have hres := h.res_pos
  have hdK : (1 : K) ≤ d := by exact_mod_cast hd
  have hdr : m.resolution ≤ d * m.resolution := by nlinarith
  have key : ∀ o : Idx, InAnnulus d o → (ex - m.resolution * (o.x : K)) ^ 2 + (ey - m.resolution * (o.y : K)) ^ 2 ≤
      (d * m.resolution) ^ 2 → ∃ i p, m.getPosition i = some p ∧ InAnnulus d (i - (m.getIndex center).1) ∧
      (d + 1 = spiralRings m radius → dist2 p center ≤ radius ^ 2) := by
    intro o ho hdist
    obtain ⟨o1, o2⟩ := hoff ((m.getIndex center).1 + o)
    have eo : (m.getIndex center).1 + o - (m.getIndex center).1 = o := by ext <;> simp
    rw [eo] at o1 o2
    have hdd : dist2 (m.center ((m.getIndex center).1 + o)) center ≤ radius ^ 2 := by
      unfold dist2
      rw [o1, o2]
      refine le_trans hdist (pow_le_pow_left₀ (by positivity) hlt.le 2)
    have hin := hfit _ hdd
    rw [isInside_iff h, cellU_center h] at hin
    refine ⟨(m.getIndex center).1 + o, m.center ((m.getIndex center).1 + o), ?_, by rw [eo]; exact ho, fun _ => hdd⟩
    rw [getPosition_eq hin, h0]; simp [unwrapIdx]
  have hannx : ∀ s : Int, s ^ 2 = 1 → InAnnulus d ⟨s * d, 0⟩ := by
    intro s hs
    refine ⟨?_, ?_⟩ <;> simp only <;> nlinarith
  have hanny : ∀ s : Int, s ^ 2 = 1 → InAnnulus d ⟨0, s * d⟩ := by
    intro s hs
    refine ⟨?_, ?_⟩ <;> simp only <;> nlinarith
  -- choose the axis with the larger offset, and step against it
  have pick : ∀ a b : K, -(m.resolution / 2) ≤ a → a ≤ m.resolution / 2 → b ^ 2 ≤ a ^ 2 →
      ∃ s : Int, s ^ 2 = 1 ∧ (a - m.resolution * ((s * d : Int) : K)) ^ 2 + b ^ 2 ≤ (d * m.resolution) ^ 2 := by
    intro a b h1 h2 hab
    by_cases ha : 0 ≤ a
    · refine ⟨1, by norm_num, ?_⟩
      push_cast
      nlinarith [mul_nonneg ha (by linarith : 0 ≤ d * m.resolution - a)]
    · refine ⟨-1, by norm_num, ?_⟩
      push_cast
      nlinarith [mul_nonneg (by linarith : 0 ≤ -a) (by linarith : 0 ≤ d * m.resolution + a)]
  by_cases hxy : ey ^ 2 ≤ ex ^ 2
  · obtain ⟨s, hs, hle⟩ := pick ex ey e1 e2 hxy
    exact key ⟨s * d, 0⟩ (hannx s hs) (by simpa using hle)
  · obtain ⟨s, hs, hle⟩ := pick ey ex e3 e4 (not_le.mp hxy).le
    exact key ⟨0, s * d⟩ (hanny s hs) (by simpa [add_comm] using hle)

/-- C23 for circles that lie inside a map whose buffer was never rotated. -/
theorem C23_spiral_fits_partial {m : CostMap K} (h : m.Geo) (h0 : m.startIndex = 0) {center : Vec K}
    (hc : m.isInside center = true) {radius : K} (hr : 0 ≤ radius)
    (hfit : ∀ p, dist2 p center ≤ radius ^ 2 → m.isInside p = true) :
    ∃ it xs, SpiralIter.new m center radius = .ok it ∧ Visits SpiralIter.ops it xs ∧ xs.Nodup ∧
      (∀ i ∈ xs, i.In m.size) ∧
      (∀ i p, m.getPosition i = some p → dist2 p center ≤ radius ^ 2 → i ∈ xs) ∧
      xs.Pairwise (fun i j => ∀ d e, InAnnulus d (i - (m.getIndex center).1) →
        InAnnulus e (j - (m.getIndex center).1) → d ≤ e) :=
  C23_spiral_partial h h0 hc hr (ringsReach_of_fits h h0 hc hr hfit)

theorem visits_not_of_ub {σ β : Type} {I : IterOps σ β} {s : σ} (h1 : I.isPastEnd s = false) (h2 : I.deref s = .ub) :
    ¬ ∃ xs, Visits I s xs := by
  rintro ⟨xs, h⟩
  cases h with
  | done hp => rw [h1] at hp; cases hp
  | step _ hd _ _ => rw [h2] at hd; cases hd

/-- A map of one cell. -/
def oneCell : CostMap ℚ := (CostMap.setGeometry ⟨1, 1⟩ 1 ⟨0, 0⟩ (CostMap.new ["a"])).2

/-- D7. C23 is false on a small map: with one cell and radius 3, the iterator is not past its end after the first
increment, but has no cell to dereference. -/
theorem C23_false_on_small_map :
    ∃ it it', SpiralIter.new oneCell ⟨0, 0⟩ 3 = .ok it ∧ it.isPastEnd = false ∧ it.deref = .ok ⟨0, 0⟩ ∧
      it.next = .ok it' ∧ it'.isPastEnd = false ∧ it'.deref = .ub := by
  have hg : oneCell.Geo := by constructor <;> decide +kernel
  have hn : SpiralIter.new oneCell ⟨0, 0⟩ 3 = .ok (spiralInit oneCell ⟨0, 0⟩ 3) :=
    spiral_new hg (by decide +kernel) (by norm_num)
  refine ⟨_, { spiralInit oneCell ⟨0, 0⟩ 3 with distance := 1, points := [] }, hn, by decide +kernel,
    by decide +kernel, by decide +kernel, by decide +kernel, by decide +kernel⟩

/-- D7. C23 is false on a moved map: the cell `(0, 0)` has its centre within the radius, but only the central
cell is visited. -/
theorem C23_false_on_moved_map :
    ∃ it, SpiralIter.new Demo.rotated ⟨1, -3 / 4⟩ (1 / 2) = .ok it ∧ Visits SpiralIter.ops it [⟨0, 3⟩] ∧
      ∃ p, Demo.rotated.getPosition ⟨0, 0⟩ = some p ∧ dist2 p ⟨1, -3 / 4⟩ ≤ (1 / 2) ^ 2 := by
  have hn : SpiralIter.new Demo.rotated ⟨1, -3 / 4⟩ (1 / 2) = .ok (spiralInit Demo.rotated ⟨1, -3 / 4⟩ (1 / 2)) :=
    spiral_new Demo.rotated_geo (by decide +kernel) (by norm_num)
  refine ⟨_, hn, .step (s' := { spiralInit Demo.rotated ⟨1, -3 / 4⟩ (1 / 2) with distance := 1, points := [] })
    (by decide +kernel) (by decide +kernel) (by decide +kernel) (.done (by decide +kernel)),
    ⟨1, -5 / 4⟩, by decide +kernel, by norm_num [dist2]⟩

/-- D7. With the centre outside the map and radius zero no loop over the iterator ends normally: it walks rings
until one has no cell on the map, and dereferences nothing. -/
theorem C23_outside_centre_never_ends {m : CostMap K} {center : Vec K} {it : SpiralIter K}
    (hout : inRange (m.getIndex center).1 m.size = false) (h : SpiralIter.new m center 0 = .ok it) :
    ¬ ∃ xs, Visits SpiralIter.ops it xs := by
  have hinv : it.nRings = 0 ∧ it.distance ≠ 0 := by
    unfold SpiralIter.new at h
    simp only [zero_div, Int.ceil_zero, lt_irrefl, if_false, hout, Bool.false_eq_true] at h
    unfold SpiralIter.generateRing at h
    simp only at h
    split at h
    · cases h
    · cases h
      exact ⟨rfl, by simp⟩
  rintro ⟨xs, hv⟩
  clear h
  induction hv with
  | done hp =>
    simp only [SpiralIter.ops, SpiralIter.isPastEnd, Bool.and_eq_true, decide_eq_true_eq] at hp
    exact hinv.2 (hp.1.trans hinv.1)
  | @step s s' x xs _ _ hn _ ih =>
    apply ih
    simp only [SpiralIter.ops, SpiralIter.next] at hn
    split at hn
    · cases hn
    · split at hn
      · unfold SpiralIter.generateRing at hn
        simp only at hn
        split at hn
        · cases hn
        · cases hn; exact ⟨hinv.1, by simp⟩
      · cases hn; exact hinv

example : ∃ it xs, SpiralIter.new Demo.base ⟨1, -1⟩ (9 / 10) = .ok it ∧ Visits SpiralIter.ops it xs ∧
    (⟨2, 1⟩ : Idx) ∈ xs ∧ (⟨1, 2⟩ : Idx) ∈ xs := by
  obtain ⟨it, xs, h1, h2, -, -, h3, -⟩ := C23_spiral_fits_partial Demo.base_geo Demo.base_start (center := ⟨1, -1⟩)
    (radius := 9 / 10) (by decide +kernel) (by norm_num) (by
      intro p hp
      unfold dist2 at hp
      simp only at hp
      have a1 : (p.x - 1) ^ 2 ≤ (9 / 10) ^ 2 := by nlinarith [sq_nonneg (p.y - -1)]
      have a2 : (p.y - -1) ^ 2 ≤ (9 / 10) ^ 2 := by nlinarith [sq_nonneg (p.x - 1)]
      have b1 := abs_le.mp (abs_le_of_sq_le_sq a1 (by norm_num))
      have b2 := abs_le.mp (abs_le_of_sq_le_sq a2 (by norm_num))
      rw [C11_inside_iff]
      have e1 : Demo.base.position = ⟨1, -1⟩ := by decide +kernel
      have e2 : Demo.base.length = ⟨5 / 2, 2⟩ := by decide +kernel
      rw [Covers, e1, e2]
      refine ⟨⟨?_, ?_⟩, ?_, ?_⟩ <;> simp only <;> linarith [b1.1, b1.2, b2.1, b2.2])
  exact ⟨it, xs, h1, h2, h3 _ ⟨1, -3 / 4⟩ (by decide +kernel) (by norm_num [dist2]),
    h3 _ ⟨3 / 2, -5 / 4⟩ (by decide +kernel) (by norm_num [dist2])⟩

/-! ## C63 -/

/-- C63 (partial: the cells visited are within one resolution of the radius, not within the radius, which is false by
`C63_false_inner_rings`). -/
theorem C63_within_partial {m : CostMap K} (h : m.Geo) (h0 : m.startIndex = 0) {center : Vec K}
    (hc : m.isInside center = true) {radius : K} (hr : 0 ≤ radius) (hrings : RingsReach m center radius) :
    ∃ it xs, SpiralIter.new m center radius = .ok it ∧ Visits SpiralIter.ops it xs ∧
      ∀ i ∈ xs, ∀ p, m.getPosition i = some p → dist2 p center ≤ (radius + m.resolution) ^ 2 := by
  obtain ⟨it, xs, h1, h2, -, -, h5⟩ := spiral_visits h h0 hc hr hrings
  refine ⟨it, xs, h1, h2, ?_⟩
  intro i hi p hp
  have hres := h.res_pos
  have hout : ∀ p, dist2 p center ≤ radius ^ 2 → dist2 p center ≤ (radius + m.resolution) ^ 2 :=
    fun p hp => hp.trans (pow_le_pow_left₀ hr (by linarith) 2)
  have hin : i.In m.size := by
    by_contra hn; rw [getPosition_none hn] at hp; cases hp
  have hpc : p = m.center i := by
    rw [getPosition_eq hin, h0] at hp
    have hu : unwrapIdx i m.size 0 = i := by simp [unwrapIdx]
    rw [hu] at hp
    cases hp; rfl
  obtain ⟨ex, ey, e1, e2, e3, e4, hoff⟩ := spiral_offset h h0 hc
  obtain ⟨o1, o2⟩ := hoff i
  have hd2 : dist2 p center = (ex - m.resolution * ((i - (m.getIndex center).1).x : K)) ^ 2 +
      (ey - m.resolution * ((i - (m.getIndex center).1).y : K)) ^ 2 := by
    rw [hpc]; unfold dist2; rw [o1, o2]
  have hex : ex ^ 2 ≤ m.resolution ^ 2 / 4 := by nlinarith
  have hey : ey ^ 2 ≤ m.resolution ^ 2 / 4 := by nlinarith
  rcases (h5 i).mp hi with rfl | ⟨d, p', hd1, hdn, ha, hp', hdist⟩
  · rw [hd2]
    have ez : ((m.getIndex center).1 - (m.getIndex center).1) = 0 := by ext <;> simp
    rw [ez]
    simp only [Idx.zero_x, Idx.zero_y, Int.cast_zero, mul_zero, sub_zero]
    nlinarith [mul_nonneg hr hres.le]
  · rw [hp] at hp'
    cases hp'
    by_cases hlast : d = spiralRings m radius ∨ d + 1 = spiralRings m radius
    · exact hout p (hdist hlast)
    · push Not at hlast
      -- d + 2 ≤ n, so (d + 1) * res < radius
      have hlt := (ceil_bounds hr hres).2 (d + 1) (show d + 1 < spiralRings m radius by omega)
      have ha2 := ha.2
      have haK : (((i - (m.getIndex center).1).x : K)) ^ 2 + (((i - (m.getIndex center).1).y : K)) ^ 2 <
          ((d : K) + 1) ^ 2 := by exact_mod_cast ha2
      rw [hd2]
      set x : K := ((i - (m.getIndex center).1).x : K)
      set y : K := ((i - (m.getIndex center).1).y : K)
      set R := m.resolution
      push_cast at hlt
      have hv : (R * x) ^ 2 + (R * y) ^ 2 ≤ radius ^ 2 := by
        have e : (R * x) ^ 2 + (R * y) ^ 2 = R ^ 2 * (x ^ 2 + y ^ 2) := by ring
        have : R ^ 2 * (x ^ 2 + y ^ 2) ≤ R ^ 2 * ((d : K) + 1) ^ 2 :=
          mul_le_mul_of_nonneg_left haK.le (sq_nonneg R)
        have h2 : (((d : K) + 1) * R) ^ 2 ≤ radius ^ 2 := pow_le_pow_left₀ (by positivity) hlt.le 2
        have e2 : (((d : K) + 1) * R) ^ 2 = R ^ 2 * ((d : K) + 1) ^ 2 := by ring
        linarith
      have hRr : R ≤ radius := by
        have : (0 : K) ≤ d := by positivity
        nlinarith
      -- -2 e·v ≤ 2 R radius
      have hcs : (ex * (R * x) + ey * (R * y)) ^ 2 ≤ (R * radius) ^ 2 := by
        have c1 : (ex * (R * x) + ey * (R * y)) ^ 2 + (ex * (R * y) - ey * (R * x)) ^ 2 =
          (ex ^ 2 + ey ^ 2) * ((R * x) ^ 2 + (R * y) ^ 2) := by ring
        have c2 : (ex ^ 2 + ey ^ 2) * ((R * x) ^ 2 + (R * y) ^ 2) ≤ R ^ 2 * radius ^ 2 := by
          apply mul_le_mul _ hv (by positivity) (sq_nonneg R)
          linarith [sq_nonneg R]
        have c3 := sq_nonneg (ex * (R * y) - ey * (R * x))
        have c4 : (R * radius) ^ 2 = R ^ 2 * radius ^ 2 := by ring
        linarith
      have hab := (abs_le.mp (abs_le_of_sq_le_sq hcs (by positivity))).1
      have ef : (ex - R * x) ^ 2 + (ey - R * y) ^ 2 =
        (ex ^ 2 + ey ^ 2) + ((R * x) ^ 2 + (R * y) ^ 2) - 2 * (ex * (R * x) + ey * (R * y)) := by ring
      have eg : (radius + R) ^ 2 = radius ^ 2 + R ^ 2 + 2 * (R * radius) := by ring
      rw [ef, eg]
      linarith [sq_nonneg R]

/-- A map of seven by seven unit cells. -/
def sevenMap : CostMap ℚ := (CostMap.setGeometry ⟨7, 7⟩ 1 ⟨0, 0⟩ (CostMap.new ["a"])).2

theorem sevenMap_geo : sevenMap.Geo := by constructor <;> decide +kernel

/-- C63 is false: the cell `(4, 4)` is visited, and its centre is further away from the centre of the circle than the
radius. -/
theorem C63_false_inner_rings :
    ∃ it xs, SpiralIter.new sevenMap ⟨49 / 100, 49 / 100⟩ (205 / 100) = .ok it ∧ Visits SpiralIter.ops it xs ∧
      (⟨4, 4⟩ : Idx) ∈ xs ∧ ∃ p, sevenMap.getPosition ⟨4, 4⟩ = some p ∧
        (205 / 100) ^ 2 < dist2 p ⟨49 / 100, 49 / 100⟩ := by
  have h0 : sevenMap.startIndex = 0 := by decide +kernel
  have hc : sevenMap.isInside ⟨49 / 100, 49 / 100⟩ = true := by decide +kernel
  have hr : RingsReach sevenMap ⟨49 / 100, 49 / 100⟩ (205 / 100) := by
    apply ringsReach_of_fits sevenMap_geo h0 hc (by norm_num)
    intro p hp
    unfold dist2 at hp
    simp only at hp
    have a1 : (p.x - 49 / 100) ^ 2 ≤ (205 / 100) ^ 2 := by nlinarith [sq_nonneg (p.y - 49 / 100)]
    have a2 : (p.y - 49 / 100) ^ 2 ≤ (205 / 100) ^ 2 := by nlinarith [sq_nonneg (p.x - 49 / 100)]
    have b1 := abs_le.mp (abs_le_of_sq_le_sq a1 (by norm_num))
    have b2 := abs_le.mp (abs_le_of_sq_le_sq a2 (by norm_num))
    rw [C11_inside_iff]
    have e1 : sevenMap.position = ⟨0, 0⟩ := by decide +kernel
    have e2 : sevenMap.length = ⟨7, 7⟩ := by decide +kernel
    rw [Covers, e1, e2]
    refine ⟨⟨?_, ?_⟩, ?_, ?_⟩ <;> simp only <;> linarith [b1.1, b1.2, b2.1, b2.2]
  obtain ⟨it, xs, h1, h2, -, -, h5⟩ := spiral_visits sevenMap_geo h0 hc (by norm_num) hr
  refine ⟨it, xs, h1, h2, ?_, ⟨-1, -1⟩, by decide +kernel, by norm_num [dist2]⟩
  have hn : spiralRings sevenMap (205 / 100) = 3 := by decide +kernel
  exact (h5 _).mpr (Or.inr ⟨1, ⟨-1, -1⟩, by omega, by rw [hn]; omega, by decide +kernel, by decide +kernel,
    by rw [hn]; omega⟩)

end CostMapModel

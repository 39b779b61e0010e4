import Verif.Spec.Inflation
import Verif.Lemmas.Merge

/-! # Inflation

The run of the code is reduced to a run on tags: which obstacle, if any, each cell was inflated from. -/

set_option linter.unusedSectionVars false

namespace CostMapModel
namespace Inflation
variable {K : Type} [Field K] [LinearOrder K] [IsStrictOrderedRing K] [FloorRing K]

/-! ## Distances -/

/-- The looked-up distance. -/
def cdist (hyp : Nat → Nat → K) (c o : Idx) : K := hyp (c.x - o.x).natAbs (c.y - o.y).natAbs

theorem natAbs_le_of_sq {a b n : Nat} (h : a * a + b * b ≤ n * n) : a ≤ n ∧ b ≤ n := by
  constructor
  · by_contra hn; push Not at hn
    have : n * n < a * a := Nat.mul_lt_mul_of_lt_of_le hn hn.le (by omega)
    omega
  · by_contra hn; push Not at hn
    have : n * n < b * b := Nat.mul_lt_mul_of_lt_of_le hn hn.le (by omega)
    omega

theorem sqDist_bounds {c o : Idx} {n : Nat} (h : sqDist c o ≤ n * n) :
    (c.x - o.x).natAbs ≤ n ∧ (c.y - o.y).natAbs ≤ n := natAbs_le_of_sq h

/-- Near enough for the tables. -/
def Near (n : Nat) (c o : Idx) : Prop := (c.x - o.x).natAbs ≤ n + 1 ∧ (c.y - o.y).natAbs ≤ n + 1

theorem cdist_le_iff {hyp : Nat → Nat → K} {n : Nat} (hh : HypOk hyp n) {c o : Idx} (hn : Near n c o) {k : Nat}
    (hk : k ≤ n) : cdist hyp c o ≤ (k : K) ↔ sqDist c o ≤ k * k := hh _ _ k hn.1 hn.2 hk

/-- The cells next to a cell. -/
def Beside (c e : Idx) : Prop := manhattan c e = 1

theorem beside_iff {c e : Idx} : Beside c e ↔ e = ⟨c.x - 1, c.y⟩ ∨ e = ⟨c.x, c.y - 1⟩ ∨ e = ⟨c.x + 1, c.y⟩ ∨
    e = ⟨c.x, c.y + 1⟩ := by
  unfold Beside manhattan
  constructor
  · intro h
    simp only [Idx.ext_iff]
    omega
  · rintro (rfl | rfl | rfl | rfl) <;> simp only <;> omega

theorem sq_step {a b a' b' k : Nat} (h : a * a + b * b ≤ k * k) (ha : a' ≤ a + 1) (hb : b' ≤ b + 1)
    (hab : a' + b' ≤ a + b + 1) : a' * a' + b' * b' ≤ (k + 1) * (k + 1) := by
  obtain ⟨hak, hbk⟩ := natAbs_le_of_sq h
  rcases Nat.lt_or_ge a a' with h1 | h1
  · have e : a' = a + 1 := by omega
    have hb' : b' ≤ b := by omega
    have := Nat.mul_le_mul hb' hb'
    subst e
    nlinarith
  · rcases Nat.lt_or_ge b b' with h2 | h2
    · have e : b' = b + 1 := by omega
      have := Nat.mul_le_mul h1 h1
      subst e
      nlinarith
    · have := Nat.mul_le_mul h1 h1
      have := Nat.mul_le_mul h2 h2
      nlinarith

theorem sqDist_beside {c e o : Idx} (h : Beside c e) {k : Nat} (hk : sqDist c o ≤ k * k) :
    sqDist e o ≤ (k + 1) * (k + 1) := by
  unfold sqDist at *
  rw [beside_iff] at h
  refine sq_step hk ?_ ?_ ?_ <;> (rcases h with rfl | rfl | rfl | rfl <;> simp only <;> omega)

theorem near_beside {c e o : Idx} (h : Beside c e) {n : Nat} (hk : sqDist c o ≤ n * n) : Near n e o := by
  obtain ⟨h1, h2⟩ := sqDist_bounds hk
  rw [beside_iff] at h
  unfold Near
  rcases h with rfl | rfl | rfl | rfl <;> simp only <;> omega

theorem near_self (n : Nat) (c : Idx) : Near n c c := by unfold Near; omega

theorem sqDist_self (c : Idx) : sqDist c c = 0 := by simp [sqDist]

theorem manhattan_eq_zero {a b : Idx} (h : manhattan a b = 0) : a = b := by
  unfold manhattan at h
  ext <;> omega

/-- One step back on the way from `L` to `e`, inside the map. -/
theorem step_back {e L size : Idx} (he : e.In size) (hL : L.In size) {k : Nat} (h : manhattan e L = k + 1) :
    ∃ b, b.In size ∧ manhattan b L = k ∧ Beside b e := by
  unfold manhattan at h
  unfold Idx.In at *
  by_cases hx : e.x = L.x
  · rcases lt_or_ge e.y L.y with hy | hy
    · exact ⟨⟨e.x, e.y + 1⟩, by simp only; omega, by simp only [manhattan]; omega, by simp [Beside, manhattan]⟩
    · exact ⟨⟨e.x, e.y - 1⟩, by simp only; omega, by simp only [manhattan]; omega, by simp [Beside, manhattan]⟩
  · rcases lt_or_ge e.x L.x with hy | hy
    · exact ⟨⟨e.x + 1, e.y⟩, by simp only; omega, by simp only [manhattan]; omega, by simp [Beside, manhattan]⟩
    · exact ⟨⟨e.x - 1, e.y⟩, by simp only; omega, by simp only [manhattan]; omega, by simp [Beside, manhattan]⟩

/-! ## The run on tags -/

/-- Which obstacle each cell was inflated from, the queue and the record of pushed cells. -/
structure Tags (K : Type) where
  tag : Idx → Option Idx
  queue : List (InflateCell K)
  pushed : List Idx

def Tags.start : Tags K := ⟨fun _ => none, [], []⟩

def Tags.enq (hyp : Nat → Nat → K) (n : Nat) (a : Tags K) (c o : Idx) : Tags K :=
  if (a.tag c).isSome then a
  else if (n : K) < cdist hyp c o then a
  else ⟨fun i => if i = c then some o else a.tag i, ⟨cdist hyp c o, c, o⟩ :: a.queue, c :: a.pushed⟩

/-- The neighbours in the map, in the order of the code. -/
def nbrs (size c : Idx) : List Idx :=
  (if 0 < c.x then [⟨c.x - 1, c.y⟩] else []) ++ (if 0 < c.y then [⟨c.x, c.y - 1⟩] else []) ++
  (if c.x < size.x - 1 then [⟨c.x + 1, c.y⟩] else []) ++ (if c.y < size.y - 1 then [⟨c.x, c.y + 1⟩] else [])

theorem mem_nbrs {size c e : Idx} (hc : c.In size) : e ∈ nbrs size c ↔ Beside c e ∧ e.In size := by
  rw [beside_iff]
  unfold nbrs Idx.In at *
  simp only [List.mem_append]
  constructor
  · rintro (((h | h) | h) | h) <;> (split at h <;> simp only [List.mem_singleton, List.not_mem_nil] at h) <;>
      (subst h; exact ⟨by simp, by simp only; omega⟩)
  · rintro ⟨h | h | h | h, hin⟩ <;> subst h <;> simp only at hin
    · left; left; left; rw [if_pos (by omega)]; simp
    · left; left; right; rw [if_pos (by omega)]; simp
    · left; right; rw [if_pos (by omega)]; simp
    · right; rw [if_pos (by omega)]; simp

def Tags.spread (pop : Pop K) (hyp : Nat → Nat → K) (n : Nat) (size : Idx) : Nat → Tags K → Tags K
  | 0, a => a
  | f + 1, a =>
    if a.queue.isEmpty then a else
    match pop f a.queue with
    | none => a
    | some (c, rest) =>
      Tags.spread pop hyp n size f ((nbrs size c.cell).foldl (fun a e => a.enq hyp n e c.src) { a with queue := rest })

def Tags.seeds (hyp : Nat → Nat → K) (n : Nat) (s : Idx → Cost) (xs : List Idx) (a : Tags K) : Tags K :=
  xs.foldl (fun a c => if s c = LETHAL_OBSTACLE then a.enq hyp n c c else a) a

/-- The whole run. -/
def Tags.run (pop : Pop K) (hyp : Nat → Nat → K) (n : Nat) (size : Idx) (s : Idx → Cost) : Tags K :=
  Tags.spread pop hyp n size (size.x.toNat * size.y.toNat)
    (Tags.seeds hyp n s (colMajor size.x.toNat size.y.toNat) Tags.start)

/-- The destination cell that goes with the tags. -/
def Tags.out (cost : Idx → Idx → Cost) (s : Idx → Cost) (a : Tags K) (i : Idx) : Cost :=
  match a.tag i with
  | none => s i
  | some o => superimpose (s i) (cost i o)

/-! ## The code follows the run on tags -/

/-- The code's state matches the tags. `m` is the map after the destination layer was added. -/
structure Follows (hyp : Nat → Nat → K) (computer : K → Cost) (res : K) (n : Nat) (m : CostMap K) (s : Idx → Cost)
    (ld : String) (st : Inflation K) (a : Tags K) : Prop where
  shape : CostMap.SameShape m st.map
  others : ∀ l, l ≠ ld → st.map.data l = m.data l
  dest : ∀ i, i.In m.size → st.map.at ld i = .ok (a.out (inflationCost hyp computer res) s i)
  rows : (st.obj.seen.rows : Int) = m.size.x
  cols : (st.obj.seen.cols : Int) = m.size.y
  seen : ∀ i, i.In m.size → st.obj.seen.get? i.x i.y = some (a.tag i).isSome
  queue : st.obj.queue = a.queue
  pushed : st.pushed = a.pushed
  radius : st.obj.cellRadius = n
  distances : st.obj.distances = Mat.ofFn (n + 2) (n + 2) fun i j => hyp i.toNat j.toNat
  costs : st.obj.costs = Mat.ofFn (n + 2) (n + 2) fun i j => computer (res * hyp i.toNat j.toNat)

variable {hyp : Nat → Nat → K} {computer : K → Cost} {res : K} {n : Nat} {m : CostMap K} {s : Idx → Cost}
  {ls ld : String}

theorem distanceLookup_eq {o : Inflater K} (h : o.distances = Mat.ofFn (n + 2) (n + 2) fun i j => hyp i.toNat j.toNat)
    {c src : Idx} (hn : Near n c src) : distanceLookup c src o = .ok (cdist hyp c src) := by
  unfold distanceLookup
  rw [h, Mat.get?_ofFn, if_pos (by unfold Near at hn; omega)]
  simp only [Int.toNat_natCast, cdist, Res.ofOption_some]

theorem costLookup_eq {o : Inflater K}
    (h : o.costs = Mat.ofFn (n + 2) (n + 2) fun i j => computer (res * hyp i.toNat j.toNat))
    {c src : Idx} (hn : Near n c src) : costLookup c src o = .ok (inflationCost hyp computer res c src) := by
  unfold costLookup
  rw [h, Mat.get?_ofFn, if_pos (by unfold Near at hn; omega)]
  simp only [Int.toNat_natCast, inflationCost, Res.ofOption_some]

/-- The source cell still holds its first value as long as the cell has no tag. -/
theorem Follows.source {st : Inflation K} {a : Tags K} (hf : Follows hyp computer res n m s ld st a)
    (hs : ∀ i, i.In m.size → m.at ls i = .ok (s i)) {i : Idx} (hi : i.In m.size) (ht : ls = ld → a.tag i = none) :
    st.map.at ls i = .ok (s i) := by
  by_cases h : ls = ld
  · rw [h, hf.dest i hi, Tags.out, ht h]
  · rw [CostMap.at_congr (hf.others ls h), hs i hi]

theorem Follows.enqueue {st : Inflation K} {a : Tags K} (hf : Follows hyp computer res n m s ld st a)
    (hc : m.Coherent) (hld : m.exists ld = true) (hs : ∀ i, i.In m.size → m.at ls i = .ok (s i)) {c o : Idx}
    (hi : c.In m.size) (hn : Near n c o) :
    ∃ st', Inflation.enqueue ls ld c o st = (.ok (), st') ∧
      Follows hyp computer res n m s ld st' (a.enq hyp n c o) := by
  unfold Inflation.enqueue
  rw [Act.bind_ok (s' := st) (a := (a.tag c).isSome) (by simp only [Act.read, hf.seen c hi]; rfl)]
  unfold Tags.enq
  by_cases ht : (a.tag c).isSome = true
  · rw [if_pos ht, if_pos ht]
    exact ⟨st, rfl, hf⟩
  · rw [if_neg ht, if_neg ht]
    rw [Act.bind_ok (s' := st) (a := cdist hyp c o) (by simp only [Act.read, distanceLookup_eq hf.distances hn])]
    rw [Act.bind_ok (show (Act.get : Act (Inflation K) _) st = (.ok st, st) from rfl), hf.radius]
    by_cases hd : (n : K) < cdist hyp c o
    · rw [if_pos hd, if_pos hd]; exact ⟨st, rfl, hf⟩
    · rw [if_neg hd, if_neg hd]
      have htn : a.tag c = none := by simpa using ht
      rw [Act.bind_ok (s' := st) (a := inflationCost hyp computer res c o)
        (by simp only [Act.read, costLookup_eq hf.costs hn])]
      rw [Act.bind_ok (s' := st) (a := s c) (by simp only [Act.read, hf.source hs hi fun _ => htn])]
      have hc' : st.map.Coherent := hf.shape.coherent hc
      have hld' : st.map.exists ld = true := by
        have := hf.shape.isSome ld
        unfold CostMap.exists at *; rw [this]; exact hld
      have hi' : c.In st.map.size := by rw [hf.shape.geo.size]; exact hi
      obtain ⟨m', e, hsh, hat, hoth⟩ := CostMap.setAt_spec hc' hld' hi'
        (superimpose (s c) (inflationCost hyp computer res c o))
      rw [Act.bind_ok (s' := { st with map := m' }) (a := ()) (by simp only [onMap, e])]
      refine ⟨_, rfl, ⟨hf.shape.trans hsh, fun l hl => (hoth l hl).trans (hf.others l hl), ?_, hf.rows, hf.cols, ?_,
        ?_, ?_, hf.radius, hf.distances, hf.costs⟩⟩
      · intro i hi2
        simp only
        rw [hat]
        by_cases hic : i = c
        · subst hic; simp [Tags.out]
        · rw [if_neg (fun h => hic h.2), hf.dest i hi2]; simp [Tags.out, hic]
      · intro i hi2
        simp only
        rw [Mat.get?_set]
        by_cases hic : i = c
        · subst hic; simp [hf.seen i hi2]
        · rw [if_neg (fun h => hic (Idx.ext h.1 h.2)), hf.seen i hi2]; simp [hic]
      · simp only [hf.queue]
      · simp only [hf.pushed]

/-- A loop of enqueues. -/
theorem Follows.enqueues (hc : m.Coherent) (hld : m.exists ld = true) (hs : ∀ i, i.In m.size → m.at ls i = .ok (s i)) {o : Idx} :
    ∀ {xs : List Idx}, (∀ c ∈ xs, c.In m.size ∧ Near n c o) → ∀ {st : Inflation K} {a : Tags K},
      Follows hyp computer res n m s ld st a →
      ∃ st', Act.forEach (fun c => Inflation.enqueue ls ld c o) xs st = (.ok (), st') ∧
        Follows hyp computer res n m s ld st' (xs.foldl (fun a e => a.enq hyp n e o) a)
  | [], _, st, a, hf => ⟨st, rfl, hf⟩
  | c :: xs, hx, st, a, hf => by
    obtain ⟨h1, h2⟩ := hx c (by simp)
    obtain ⟨st', e, hf'⟩ := hf.enqueue hc hld hs h1 h2
    obtain ⟨st'', e', hf''⟩ := Follows.enqueues hc hld hs (xs := xs) (fun c' h' => hx c' (by simp [h'])) hf'
    refine ⟨st'', ?_, hf''⟩
    rw [Act.forEach, Act.bind_ok e, e']

theorem _root_.CostMapModel.Act.bind_pure_unit {σ : Type} (f : Act σ Unit) : (Act.bind f fun _ => Act.pure ()) = f := by
  funext s
  unfold Act.bind
  rcases f s with ⟨r, s'⟩
  cases r <;> rfl

theorem _root_.CostMapModel.Act.pure_bind {σ α β : Type} (a : α) (f : α → Act σ β) : Act.bind (Act.pure a) f = f a := rfl

theorem visit_eq (ls ld : String) (c o : Idx) (st : Inflation K) :
    visit ls ld c o st = Act.forEach (fun e => Inflation.enqueue ls ld e o) (nbrs st.map.size c) st := by
  unfold visit
  rw [Act.bind_ok (show (Act.get : Act (Inflation K) _) st = (.ok st, st) from rfl)]
  unfold nbrs
  by_cases h1 : 0 < c.x <;> by_cases h2 : 0 < c.y <;> by_cases h3 : c.x < st.map.size.x - 1 <;>
    by_cases h4 : c.y < st.map.size.y - 1 <;>
    simp only [h1, h2, h3, h4, if_true, if_false, List.nil_append, List.cons_append, List.append_nil, Act.forEach,
      Act.bind_pure_unit, Act.pure_bind]

theorem mem_colMajor {r c : Nat} {i : Idx} : i ∈ colMajor r c ↔ 0 ≤ i.x ∧ i.x < r ∧ 0 ≤ i.y ∧ i.y < c := by
  unfold colMajor
  simp only [List.mem_flatMap, List.mem_map, List.mem_range]
  constructor
  · rintro ⟨j, hj, k, hk, rfl⟩; simp only; omega
  · rintro ⟨h1, h2, h3, h4⟩
    exact ⟨i.y.toNat, by omega, i.x.toNat, by omega, by ext <;> simp only <;> omega⟩

theorem colMajor_nodup (r c : Nat) : (colMajor r c).Nodup := by
  unfold colMajor
  rw [List.nodup_flatMap]
  refine ⟨fun j _ => ?_, ?_⟩
  · refine List.Nodup.map_on ?_ List.nodup_range
    intro a _ b _ h
    simp only [Idx.mk.injEq] at h; omega
  · refine List.nodup_range.imp ?_
    intro a b hab
    simp only [Function.onFun, List.disjoint_left, List.mem_map]
    rintro x ⟨i, _, rfl⟩ ⟨j, _, h⟩
    simp only [Idx.mk.injEq] at h; omega

theorem colMajor_length (r c : Nat) : (colMajor r c).length = r * c := by
  unfold colMajor
  simp [List.length_flatMap, Nat.mul_comm]

/-! ## Invariants of the run on tags -/

structure Inv (hyp : Nat → Nat → K) (n : Nat) (size : Idx) (s : Idx → Cost) (a : Tags K) : Prop where
  q : ∀ e ∈ a.queue, a.tag e.cell = some e.src ∧ e.dist = cdist hyp e.cell e.src
  t : ∀ c o, a.tag c = some o → c.In size ∧ o.In size ∧ s o = LETHAL_OBSTACLE ∧ sqDist c o ≤ n * n
  pn : a.pushed.Nodup
  pm : ∀ c, c ∈ a.pushed ↔ (a.tag c).isSome = true

variable {size : Idx} {pop : Pop K}

theorem Inv.start : Inv hyp n size s (Tags.start : Tags K) :=
  ⟨by simp [Tags.start], by simp [Tags.start], by simp [Tags.start], by simp [Tags.start]⟩

/-- The three ways an enqueue can go. -/
theorem Tags.enq_cases (hh : HypOk hyp n) (a : Tags K) {c o : Idx} (hn : Near n c o) :
    ((a.tag c).isSome = true ∧ a.enq hyp n c o = a) ∨
    (a.tag c = none ∧ n * n < sqDist c o ∧ a.enq hyp n c o = a) ∨
    (a.tag c = none ∧ sqDist c o ≤ n * n ∧ a.enq hyp n c o =
      ⟨fun i => if i = c then some o else a.tag i, ⟨cdist hyp c o, c, o⟩ :: a.queue, c :: a.pushed⟩) := by
  unfold Tags.enq
  by_cases h : (a.tag c).isSome = true
  · left; exact ⟨h, by rw [if_pos h]⟩
  · right
    have h' : a.tag c = none := by simpa using h
    by_cases hd : (n : K) < cdist hyp c o
    · left
      refine ⟨h', ?_, by rw [if_neg h, if_pos hd]⟩
      by_contra hcon
      exact absurd ((cdist_le_iff hh hn le_rfl).mpr (by omega)) (not_le.mpr hd)
    · right
      exact ⟨h', (cdist_le_iff hh hn le_rfl).mp (not_lt.mp hd), by rw [if_neg h, if_neg hd]⟩

theorem Inv.enq (hh : HypOk hyp n) {a : Tags K} (hi : Inv hyp n size s a) {c o : Idx} (hn : Near n c o)
    (hc : c.In size) (ho : o.In size) (hl : s o = LETHAL_OBSTACLE) : Inv hyp n size s (a.enq hyp n c o) := by
  rcases a.enq_cases hh hn with ⟨-, e⟩ | ⟨-, -, e⟩ | ⟨ht, hd, e⟩ <;> rw [e]
  · exact hi
  · exact hi
  · refine ⟨?_, ?_, ?_, ?_⟩
    · intro x hx
      rcases List.mem_cons.mp hx with rfl | hx
      · simp
      · obtain ⟨h1, h2⟩ := hi.q x hx
        refine ⟨?_, h2⟩
        have : x.cell ≠ c := fun h => by rw [h, ht] at h1; cases h1
        simp only [this, if_false]; exact h1
    · intro c' o' h
      simp only at h
      by_cases hcc : c' = c
      · subst hcc
        simp only [if_true, Option.some.injEq] at h
        subst h
        exact ⟨hc, ho, hl, hd⟩
      · simp only [hcc, if_false] at h
        exact hi.t c' o' h
    · rw [List.nodup_cons]
      refine ⟨?_, hi.pn⟩
      rw [hi.pm, ht]; simp
    · intro c'
      simp only [List.mem_cons, hi.pm]
      by_cases hcc : c' = c <;> simp [hcc]

/-- What holds between two rounds of the loop over the queue. -/
structure Loop (hyp : Nat → Nat → K) (n : Nat) (size : Idx) (s : Idx → Cost) (a : Tags K) : Prop where
  inv : Inv hyp n size s a
  seeds : ∀ L, L.In size → s L = LETHAL_OBSTACLE → a.tag L = some L
  near : ∀ c o, a.tag c = some o → ∀ L, L.In size → s L = LETHAL_OBSTACLE → manhattan c L ≤ n →
    sqDist c o ≤ manhattan c L * manhattan c L
  closed : ∀ c o, a.tag c = some o → (∀ x ∈ a.queue, x.cell ≠ c) → ∀ e, Beside c e → e.In size →
    (a.tag e).isSome = true ∨ n * n < sqDist e o

/-- When the cell popped is farther than `k`, everything in Manhattan range `k` is settled. -/
theorem Loop.settled (hh : HypOk hyp n) {a : Tags K} (hl : Loop hyp n size s a) {pc : InflateCell K}
    (hpc : pc ∈ a.queue) (hmin : ∀ x ∈ a.queue, pc.dist ≤ x.dist) : ∀ {k : Nat}, k ≤ n →
    k * k < sqDist pc.cell pc.src → ∀ {e L : Idx}, e.In size → L.In size → s L = LETHAL_OBSTACLE →
    manhattan e L = k → ∃ o, a.tag e = some o ∧ sqDist e o ≤ k * k ∧ ∀ x ∈ a.queue, x.cell ≠ e := by
  have notin : ∀ {k : Nat}, k ≤ n → k * k < sqDist pc.cell pc.src → ∀ {e o : Idx}, a.tag e = some o →
      sqDist e o ≤ k * k → ∀ x ∈ a.queue, x.cell ≠ e := by
    intro k hk hlt e o ht hd x hx he
    obtain ⟨hx1, hx2⟩ := hl.inv.q x hx
    obtain ⟨hp1, hp2⟩ := hl.inv.q pc hpc
    have hm := hmin x hx
    rw [he, ht] at hx1
    cases hx1
    have nx : Near n x.cell x.src := by
      obtain ⟨h1, h2⟩ := sqDist_bounds (hl.inv.t _ _ (he ▸ ht)).2.2.2
      exact ⟨by omega, by omega⟩
    have np : Near n pc.cell pc.src := by
      obtain ⟨h1, h2⟩ := sqDist_bounds (hl.inv.t _ _ hp1).2.2.2
      exact ⟨by omega, by omega⟩
    have h1 : x.dist ≤ (k : K) := by rw [hx2]; exact (cdist_le_iff hh nx hk).mpr (he ▸ hd)
    have h2 : pc.dist ≤ (k : K) := hm.trans h1
    rw [hp2] at h2
    have := (cdist_le_iff hh np hk).mp h2
    omega
  intro k
  induction k with
  | zero =>
    intro hk hlt e L he hL hs hm
    obtain rfl := manhattan_eq_zero hm
    have ht := hl.seeds e he hs
    have hd : sqDist e e ≤ 0 * 0 := by simp [sqDist_self]
    exact ⟨e, ht, hd, notin hk hlt ht hd⟩
  | succ k ih =>
    intro hk hlt e L he hL hs hm
    obtain ⟨b, hb, hmb, hbe⟩ := step_back he hL hm
    have hklt : k * k < sqDist pc.cell pc.src := lt_trans (by nlinarith) hlt
    obtain ⟨o, hto, hdo, hnq⟩ := ih (by omega) hklt hb hL hs hmb
    have hde : sqDist e o ≤ (k + 1) * (k + 1) := sqDist_beside hbe hdo
    have hnn : (k + 1) * (k + 1) ≤ n * n := Nat.mul_le_mul hk hk
    rcases hl.closed b o hto hnq e hbe he with h | h
    · obtain ⟨o', ho'⟩ := Option.isSome_iff_exists.mp h
      have hd := hl.near e o' ho' L hL hs (by omega)
      rw [hm] at hd
      exact ⟨o', ho', hd, notin hk hlt ho' hd⟩
    · omega

/-- What holds while the neighbours of the popped cell are enqueued. `a₀` is the state before the pop. -/
structure Mid (hyp : Nat → Nat → K) (n : Nat) (size : Idx) (s : Idx → Cost) (a₀ : Tags K) (pc : InflateCell K)
    (a : Tags K) : Prop where
  inv : Inv hyp n size s a
  ext : ∀ c o, a₀.tag c = some o → a.tag c = some o
  near : ∀ c o, a.tag c = some o → ∀ L, L.In size → s L = LETHAL_OBSTACLE → manhattan c L ≤ n →
    sqDist c o ≤ manhattan c L * manhattan c L
  closed : ∀ c o, a.tag c = some o → c ≠ pc.cell → (∀ x ∈ a.queue, x.cell ≠ c) → ∀ e, Beside c e → e.In size →
    (a.tag e).isSome = true ∨ n * n < sqDist e o

theorem Mid.enq (hh : HypOk hyp n) {a₀ a : Tags K} {pc : InflateCell K} (hl : Loop hyp n size s a₀)
    (hpc : pc ∈ a₀.queue) (hmin : ∀ x ∈ a₀.queue, pc.dist ≤ x.dist) (hm : Mid hyp n size s a₀ pc a) {e : Idx}
    (he : Beside pc.cell e) (hin : e.In size) :
    Mid hyp n size s a₀ pc (a.enq hyp n e pc.src) ∧
      (∀ c o, a.tag c = some o → (a.enq hyp n e pc.src).tag c = some o) ∧
      (((a.enq hyp n e pc.src).tag e).isSome = true ∨ n * n < sqDist e pc.src) := by
  obtain ⟨hp1, hp2⟩ := hl.inv.q pc hpc
  obtain ⟨-, ho, hol, hsq⟩ := hl.inv.t _ _ hp1
  have hn := near_beside he hsq
  have hinv := hm.inv.enq hh hn hin ho hol
  rcases a.enq_cases hh hn with ⟨h, e1⟩ | ⟨-, h, e1⟩ | ⟨ht, hd, e1⟩ <;> rw [e1] at hinv ⊢
  · exact ⟨hm, fun _ _ h => h, .inl h⟩
  · exact ⟨hm, fun _ _ h => h, .inr h⟩
  · have grow : ∀ c o, a.tag c = some o → (if c = e then some pc.src else a.tag c) = some o := by
      intro c o h
      have : c ≠ e := fun hce => by rw [hce, ht] at h; cases h
      rw [if_neg this, h]
    refine ⟨⟨hinv, fun c o h => grow c o (hm.ext c o h), ?_, ?_⟩, grow, .inl (by simp)⟩
    · intro c o hco L hL hs hk
      by_cases hce : c = e
      · subst hce
        simp only [if_true, Option.some.injEq] at hco
        subst hco
        by_contra hcon
        push Not at hcon
        have h0 : a₀.tag c = none := by
          by_contra hne
          obtain ⟨o, ho⟩ := Option.ne_none_iff_exists'.mp hne
          rw [hm.ext c o ho] at ht; cases ht
        rcases hkk : manhattan c L with _ | k
        · obtain rfl := manhattan_eq_zero hkk
          rw [hl.seeds c hL hs] at h0; cases h0
        · rw [hkk] at hk hcon
          have hfar : k * k < sqDist pc.cell pc.src := by
            by_contra hle
            have := sqDist_beside (o := pc.src) he (k := k) (by omega)
            omega
          obtain ⟨b, hb, hmb, hbe⟩ := step_back hin hL hkk
          obtain ⟨o, hto, hdo, hnq⟩ := hl.settled hh hpc hmin (by omega) hfar hb hL hs hmb
          have hde : sqDist c o ≤ (k + 1) * (k + 1) := sqDist_beside hbe hdo
          have hnn : (k + 1) * (k + 1) ≤ n * n := Nat.mul_le_mul hk hk
          rcases hl.closed b o hto hnq c hbe hin with h | h
          · rw [h0] at h; cases h
          · omega
      · simp only [hce, if_false] at hco
        exact hm.near c o hco L hL hs hk
    · intro c o hco hcp hnq e' hbe hin'
      have hce : c ≠ e := fun h => hnq ⟨cdist hyp e pc.src, e, pc.src⟩ (by simp) h.symm
      simp only [hce, if_false] at hco
      rcases hm.closed c o hco hcp (fun x hx => hnq x (by simp [hx])) e' hbe hin' with h | h
      · left
        simp only
        split
        · rfl
        · exact h
      · exact .inr h

theorem Mid.enqs (hh : HypOk hyp n) {a₀ : Tags K} {pc : InflateCell K} (hl : Loop hyp n size s a₀)
    (hpc : pc ∈ a₀.queue) (hmin : ∀ x ∈ a₀.queue, pc.dist ≤ x.dist) :
    ∀ {xs : List Idx}, (∀ e ∈ xs, Beside pc.cell e ∧ e.In size) → ∀ {a : Tags K}, Mid hyp n size s a₀ pc a →
      Mid hyp n size s a₀ pc (xs.foldl (fun a e => a.enq hyp n e pc.src) a) ∧
      (∀ c o, a.tag c = some o → (xs.foldl (fun a e => a.enq hyp n e pc.src) a).tag c = some o) ∧
      ∀ e ∈ xs, ((xs.foldl (fun a e => a.enq hyp n e pc.src) a).tag e).isSome = true ∨ n * n < sqDist e pc.src
  | [], _, a, hm => ⟨hm, fun _ _ h => h, by simp⟩
  | x :: xs, hx, a, hm => by
    obtain ⟨h1, h2⟩ := hx x (by simp)
    obtain ⟨m1, g1, d1⟩ := hm.enq hh hl hpc hmin h1 h2
    obtain ⟨m2, g2, d2⟩ := Mid.enqs hh hl hpc hmin (xs := xs) (fun e he => hx e (by simp [he])) m1
    refine ⟨m2, fun c o h => g2 c o (g1 c o h), ?_⟩
    intro e he
    rcases List.mem_cons.mp he with rfl | he
    · rcases d1 with h | h
      · obtain ⟨o, ho⟩ := Option.isSome_iff_exists.mp h
        left
        simp only [List.foldl_cons]
        rw [g2 e o ho]; rfl
      · exact .inr h
    · exact d2 e he

/-- One round of the loop keeps the invariant. -/
theorem Loop.round (hh : HypOk hyp n) {a : Tags K} (hl : Loop hyp n size s a) {pc : InflateCell K}
    {rest : List (InflateCell K)} (hperm : List.Perm (pc :: rest) a.queue) (hmin : ∀ x ∈ rest, pc.dist ≤ x.dist) :
    Loop hyp n size s
      ((nbrs size pc.cell).foldl (fun a e => a.enq hyp n e pc.src) { a with queue := rest }) := by
  have hpc : pc ∈ a.queue := hperm.mem_iff.mp (by simp)
  have hmin' : ∀ x ∈ a.queue, pc.dist ≤ x.dist := by
    intro x hx
    rcases List.mem_cons.mp (hperm.mem_iff.mpr hx) with rfl | h
    · exact le_rfl
    · exact hmin x h
  obtain ⟨hp1, -⟩ := hl.inv.q pc hpc
  obtain ⟨hcin, -, -, -⟩ := hl.inv.t _ _ hp1
  have h0 : Mid hyp n size s a pc { a with queue := rest } := by
    refine ⟨⟨fun e he => hl.inv.q e (hperm.mem_iff.mp (by simp [he])), hl.inv.t, hl.inv.pn, hl.inv.pm⟩,
      fun _ _ h => h, hl.near, ?_⟩
    intro c o hco hne hnq e hbe hin
    refine hl.closed c o hco ?_ e hbe hin
    intro x hx
    rcases List.mem_cons.mp (hperm.mem_iff.mpr hx) with rfl | h
    · exact fun h => hne h.symm
    · exact hnq x h
  obtain ⟨hm, -, hd⟩ := Mid.enqs hh hl hpc hmin' (fun e he => (mem_nbrs hcin).mp he) h0
  refine ⟨hm.inv, fun L hL hs => hm.ext L L (hl.seeds L hL hs), hm.near, ?_⟩
  intro c o hco hnq e hbe hin
  by_cases hcp : c = pc.cell
  · subst hcp
    rw [hm.ext _ _ hp1] at hco
    cases hco
    exact hd e ((mem_nbrs hcin).mpr ⟨hbe, hin⟩)
  · exact hm.closed c o hco hcp hnq e hbe hin

/-- Every push adds one cell to the queue and to the record. -/
theorem Tags.enq_count (a : Tags K) (c o : Idx) :
    (a.enq hyp n c o).queue.length + a.pushed.length = a.queue.length + (a.enq hyp n c o).pushed.length := by
  unfold Tags.enq
  split
  · rfl
  · split
    · rfl
    · simp only [List.length_cons]; omega

theorem Tags.enqs_count (o : Idx) : ∀ (xs : List Idx) (a : Tags K),
    (xs.foldl (fun a e => a.enq hyp n e o) a).queue.length + a.pushed.length =
      a.queue.length + (xs.foldl (fun a e => a.enq hyp n e o) a).pushed.length
  | [], a => rfl
  | x :: xs, a => by
    have h1 := Tags.enqs_count o xs (a.enq hyp n x o)
    have h2 := a.enq_count (hyp := hyp) (n := n) x o
    simp only [List.foldl_cons]
    omega

theorem Inv.count {a : Tags K} (hi : Inv hyp n size s a) : a.pushed.length ≤ size.x.toNat * size.y.toNat := by
  rw [← colMajor_length]
  refine (hi.pn.subperm ?_).length_le
  intro c hc
  obtain ⟨o, ho⟩ := Option.isSome_iff_exists.mp ((hi.pm c).mp hc)
  obtain ⟨⟨h1, h2, h3, h4⟩, -⟩ := hi.t c o ho
  rw [mem_colMajor]; omega

/-- The run on tags ends with an empty queue and the invariant. -/
theorem Loop.spread (hh : HypOk hyp n) (hpop : PopOk pop) : ∀ (f : Nat) {a : Tags K}, Loop hyp n size s a →
    size.x.toNat * size.y.toNat + a.queue.length ≤ f + a.pushed.length →
    Loop hyp n size s (Tags.spread pop hyp n size f a) ∧ (Tags.spread pop hyp n size f a).queue = []
  | 0, a, hl, hf => by
    have := hl.inv.count
    exact ⟨hl, List.length_eq_zero_iff.mp (by show a.queue.length = 0; omega)⟩
  | f + 1, a, hl, hf => by
    unfold Tags.spread
    by_cases hq : a.queue = []
    · rw [if_pos (by simp [hq])]; exact ⟨hl, hq⟩
    · rw [if_neg (by simpa using hq)]
      obtain ⟨pc, rest, e, hperm, hmin⟩ := hpop f a.queue hq
      rw [e]
      have h1 := Tags.enqs_count (hyp := hyp) (n := n) pc.src (nbrs size pc.cell) { a with queue := rest }
      have h2 := hperm.length_eq
      simp only [List.length_cons] at h1 h2
      exact Loop.spread hh hpop f (hl.round hh hperm hmin) (by omega)

/-! ## Seeding -/

theorem Tags.seeds_spec (hh : HypOk hyp n) : ∀ (xs : List Idx) (a : Tags K), xs.Nodup →
    (∀ c ∈ xs, c.In size ∧ a.tag c = none) → Inv hyp n size s a → (∀ c o, a.tag c = some o → o = c) →
    a.queue.length = a.pushed.length → (∀ c o, a.tag c = some o → ∃ x ∈ a.queue, x.cell = c) →
    Inv hyp n size s (Tags.seeds hyp n s xs a) ∧
      (∀ c o, (Tags.seeds hyp n s xs a).tag c = some o → o = c) ∧
      (∀ c ∈ xs, s c = LETHAL_OBSTACLE → (Tags.seeds hyp n s xs a).tag c = some c) ∧
      (∀ c o, a.tag c = some o → (Tags.seeds hyp n s xs a).tag c = some o) ∧
      (Tags.seeds hyp n s xs a).queue.length = (Tags.seeds hyp n s xs a).pushed.length ∧
      (∀ c o, (Tags.seeds hyp n s xs a).tag c = some o → ∃ x ∈ (Tags.seeds hyp n s xs a).queue, x.cell = c)
  | [], a, _, _, hi, h1, h2, h3 => ⟨hi, h1, by simp, fun _ _ h => h, h2, h3⟩
  | x :: xs, a, hn, hx, hi, h1, h2, h3 => by
    rw [List.nodup_cons] at hn
    obtain ⟨hxin, hxt⟩ := hx x (by simp)
    by_cases hs : s x = LETHAL_OBSTACLE
    · have e : Tags.seeds hyp n s (x :: xs) a = Tags.seeds hyp n s xs (a.enq hyp n x x) := by
        simp [Tags.seeds, hs]
      have hnear := near_self n x
      have hinv := hi.enq hh hnear hxin hxin hs
      rcases a.enq_cases hh hnear with ⟨h, -⟩ | ⟨-, h, -⟩ | ⟨-, -, e1⟩
      · rw [hxt] at h; cases h
      · rw [sqDist_self] at h; omega
      · rw [e]
        rw [e1] at hinv ⊢
        obtain ⟨r1, r2, r3, r4, r5, r6⟩ := Tags.seeds_spec hh xs
          ⟨fun i => if i = x then some x else a.tag i, ⟨cdist hyp x x, x, x⟩ :: a.queue, x :: a.pushed⟩ hn.2
          (fun c hc => ⟨(hx c (by simp [hc])).1, by
            have : c ≠ x := fun h => hn.1 (h ▸ hc)
            simp only [this, if_false]; exact (hx c (by simp [hc])).2⟩) hinv
          (fun c o h => by
            simp only at h
            by_cases hcx : c = x
            · simp only [hcx, if_true, Option.some.injEq] at h; rw [← h, hcx]
            · simp only [hcx, if_false] at h; exact h1 c o h)
          (by simp only [List.length_cons]; omega)
          (fun c o h => by
            simp only at h
            by_cases hcx : c = x
            · exact ⟨⟨cdist hyp x x, x, x⟩, by simp, hcx.symm⟩
            · simp only [hcx, if_false] at h
              obtain ⟨y, hy, hy'⟩ := h3 c o h
              exact ⟨y, by simp [hy], hy'⟩)
        refine ⟨r1, r2, ?_, ?_, r5, r6⟩
        · intro c hc hsc
          rcases List.mem_cons.mp hc with rfl | hc
          · exact r4 c c (by simp)
          · exact r3 c hc hsc
        · intro c o h
          refine r4 c o ?_
          have : c ≠ x := fun hcx => by rw [hcx, hxt] at h; cases h
          simp only [this, if_false]; exact h
    · have e : Tags.seeds hyp n s (x :: xs) a = Tags.seeds hyp n s xs a := by
        simp [Tags.seeds, hs]
      rw [e]
      obtain ⟨r1, r2, r3, r4, r5, r6⟩ := Tags.seeds_spec hh xs a hn.2 (fun c hc => hx c (by simp [hc])) hi h1 h2 h3
      refine ⟨r1, r2, ?_, r4, r5, r6⟩
      intro c hc hsc
      rcases List.mem_cons.mp hc with rfl | hc
      · exact absurd hsc hs
      · exact r3 c hc hsc

theorem mem_cells_of_in (h : i.In size) : i ∈ colMajor size.x.toNat size.y.toNat := by
  obtain ⟨h1, h2, h3, h4⟩ := h
  rw [mem_colMajor]; omega

theorem in_of_mem_cells {i : Idx} (h : i ∈ colMajor size.x.toNat size.y.toNat) : i.In size := by
  rw [mem_colMajor] at h
  unfold Idx.In; omega

/-- After seeding the loop invariant holds. -/
theorem Loop.seeded (hh : HypOk hyp n) :
    Loop hyp n size s (Tags.seeds hyp n s (colMajor size.x.toNat size.y.toNat) (Tags.start : Tags K)) ∧
    (Tags.seeds hyp n s (colMajor size.x.toNat size.y.toNat) (Tags.start : Tags K)).queue.length =
      (Tags.seeds hyp n s (colMajor size.x.toNat size.y.toNat) (Tags.start : Tags K)).pushed.length := by
  obtain ⟨r1, r2, r3, r4, r5, r6⟩ := Tags.seeds_spec (s := s) hh (colMajor size.x.toNat size.y.toNat) Tags.start
    (colMajor_nodup _ _) (fun c hc => ⟨in_of_mem_cells hc, rfl⟩) Inv.start (by simp [Tags.start]) rfl
    (by simp [Tags.start])
  refine ⟨⟨r1, fun L hL hs => r3 L (mem_cells_of_in hL) hs, ?_, ?_⟩, r5⟩
  · intro c o h L hL hs hk
    rw [r2 c o h, sqDist_self]; omega
  · intro c o h hnq
    obtain ⟨x, hx, hx'⟩ := r6 c o h
    exact absurd hx' (hnq x hx)

/-- The run on tags. -/
theorem Loop.run (hh : HypOk hyp n) (hpop : PopOk pop) :
    Loop hyp n size s (Tags.run pop hyp n size s) ∧ (Tags.run pop hyp n size s).queue = [] := by
  obtain ⟨h, hq⟩ := Loop.seeded (s := s) (size := size) hh
  exact Loop.spread hh hpop _ h (by omega)

/-- With an empty queue: completeness in Manhattan range. -/
theorem Loop.manhattan {a : Tags K} (hl : Loop hyp n size s a) (hq : a.queue = []) {L : Idx} (hL : L.In size)
    (hs : s L = LETHAL_OBSTACLE) : ∀ {k : Nat} {c : Idx}, c.In size → manhattan c L = k → k ≤ n →
    ∃ o, a.tag c = some o := by
  intro k
  induction k with
  | zero =>
    intro c hc hk _
    obtain rfl := manhattan_eq_zero hk
    exact ⟨c, hl.seeds c hc hs⟩
  | succ k ih =>
    intro c hc hk hn
    obtain ⟨b, hb, hmb, hbe⟩ := step_back hc hL hk
    obtain ⟨o, ho⟩ := ih hb hmb (by omega)
    have hd := hl.near b o ho L hL hs (by omega)
    rw [hmb] at hd
    have hde := sqDist_beside hbe hd
    have hnn : (k + 1) * (k + 1) ≤ n * n := Nat.mul_le_mul hn hn
    rcases hl.closed b o ho (by simp [hq]) c hbe hc with h | h
    · exact Option.isSome_iff_exists.mp h
    · omega

end Inflation
end CostMapModel

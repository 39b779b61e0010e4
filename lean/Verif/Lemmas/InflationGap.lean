import Verif.Lemmas.InflationUse

/-! # Where inflation reaches exactly the Euclidean disk, and where it does not -/

set_option linter.unusedSectionVars false

namespace CostMapModel
namespace Inflation
variable {K : Type} [Field K] [LinearOrder K] [IsStrictOrderedRing K] [FloorRing K]
variable {hyp : Nat → Nat → K} {n : Nat} {size : Idx} {s : Idx → Cost} {pop : Pop K}

/-! ## An obstacle whose disk meets no other disk -/

theorem sqDist_step_back {b c L : Idx} (hbc : Beside b c) (hm : manhattan c L = manhattan b L + 1) :
    sqDist b L ≤ sqDist c L := by
  unfold manhattan at hm
  rcases beside_iff.mp hbc with h | h | h | h <;> subst h <;> simp only at hm <;> unfold sqDist <;> simp only
  · have : (b.x - L.x).natAbs ≤ (b.x - 1 - L.x).natAbs := by omega
    have := Nat.mul_le_mul this this
    omega
  · have : (b.y - L.y).natAbs ≤ (b.y - 1 - L.y).natAbs := by omega
    have := Nat.mul_le_mul this this
    omega
  · have : (b.x - L.x).natAbs ≤ (b.x + 1 - L.x).natAbs := by omega
    have := Nat.mul_le_mul this this
    omega
  · have : (b.y - L.y).natAbs ≤ (b.y + 1 - L.y).natAbs := by omega
    have := Nat.mul_le_mul this this
    omega

theorem Loop.isolated {a : Tags K} (hl : Loop hyp n size s a) (hq : a.queue = []) {L : Idx} (hL : L.In size)
    (hs : s L = LETHAL_OBSTACLE)
    (hiso : ∀ c, c.In size → sqDist c L ≤ n * n → ∀ q, q.In size → s q = LETHAL_OBSTACLE → q ≠ L → n * n < sqDist c q) :
    ∀ (k : Nat) {c : Idx}, c.In size → CostMapModel.manhattan c L = k → sqDist c L ≤ n * n → a.tag c = some L := by
  intro k
  induction k with
  | zero =>
    intro c hc hk _
    obtain rfl := manhattan_eq_zero hk
    exact hl.seeds c hc hs
  | succ k ih =>
    intro c hc hk hd
    obtain ⟨b, hb, hmb, hbe⟩ := step_back hc hL hk
    have hdb := (sqDist_step_back hbe (by omega)).trans hd
    have ho := ih hb hmb hdb
    rcases hl.closed b L ho (by simp [hq]) c hbe hc with h | h
    · obtain ⟨o, hto⟩ := Option.isSome_iff_exists.mp h
      obtain ⟨-, h2, h3, h4⟩ := hl.inv.t c o hto
      by_cases hoL : o = L
      · rw [hto, hoL]
      · have := hiso c hc hd o h2 h3 hoL
        omega
    · omega

/-! ## The run keeps what a round keeps -/

theorem Tags.enqs_new (hyp : Nat → Nat → K) (n : Nat) (o : Idx) : ∀ (xs : List Idx) (a : Tags K) (e o' : Idx),
    (xs.foldl (fun a e => a.enq hyp n e o) a).tag e = some o' →
    a.tag e = some o' ∨ (o' = o ∧ e ∈ xs ∧ a.tag e = none)
  | [], a, e, o', h => .inl h
  | x :: xs, a, e, o', h => by
    have key : (a.enq hyp n x o).tag e = a.tag e ∨ (e = x ∧ a.tag e = none ∧ (a.enq hyp n x o).tag e = some o) := by
      unfold Tags.enq
      split
      · exact .inl rfl
      · rename_i hx
        split
        · exact .inl rfl
        · by_cases hex : e = x
          · subst hex
            exact .inr ⟨rfl, by simpa using hx, by simp⟩
          · left; simp [hex]
    rcases Tags.enqs_new hyp n o xs (a.enq hyp n x o) e o' h with h1 | ⟨h1, h2, h3⟩
    · rcases key with h' | ⟨h', h'', h'''⟩
      · exact .inl (h' ▸ h1)
      · rw [h'''] at h1
        exact .inr ⟨(Option.some.inj h1).symm, by simp [h'], h''⟩
    · rcases key with h' | ⟨h', h'', h'''⟩
      · exact .inr ⟨h1, by simp [h2], h' ▸ h3⟩
      · rw [h'''] at h3; cases h3

theorem Tags.spread_keeps (hh : HypOk hyp n) (hpop : PopOk pop) (P : Tags K → Prop)
    (hP : ∀ (a : Tags K) (pc : InflateCell K) (rest : List (InflateCell K)), Loop hyp n size s a → P a →
      List.Perm (pc :: rest) a.queue → (∀ x ∈ rest, pc.dist ≤ x.dist) →
      P ((nbrs size pc.cell).foldl (fun a e => a.enq hyp n e pc.src) { a with queue := rest })) :
    ∀ (f : Nat) {a : Tags K}, Loop hyp n size s a → P a → P (Tags.spread pop hyp n size f a)
  | 0, a, _, h => h
  | f + 1, a, hl, h => by
    unfold Tags.spread
    by_cases hq : a.queue = []
    · rw [if_pos (by simp [hq])]; exact h
    · rw [if_neg (by simpa using hq)]
      obtain ⟨pc, rest, e, hperm, hmin⟩ := hpop f a.queue hq
      rw [e]
      exact Tags.spread_keeps hh hpop P hP f (hl.round hh hperm hmin) (hP a pc rest hl h hperm hmin)

/-! ## Two obstacles whose fronts cut each other off

On a 4 x 6 map with obstacles at `A = (0, 4)` and `B = (2, 5)` the front of `B` takes the column `x = 2` and its
neighbours before the front of `A` arrives, but is too far away from `(3, 0)`, which is 5 cells from `A`. -/

def gapSize : Idx := ⟨4, 6⟩
def gapA : Idx := ⟨0, 4⟩
def gapB : Idx := ⟨2, 5⟩

/-- The cells the front of `A` never gets. -/
def gapCells : List Idx := [⟨2, 2⟩, ⟨2, 1⟩, ⟨2, 0⟩, ⟨3, 2⟩, ⟨3, 1⟩, ⟨3, 0⟩]

theorem gap_run (hh : HypOk hyp 5) (hpop : PopOk pop)
    (hs : ∀ i, i.In gapSize → (s i = LETHAL_OBSTACLE ↔ i = gapA ∨ i = gapB)) :
    (Tags.run pop hyp 5 gapSize s).tag ⟨3, 0⟩ = none := by
  have hAin : gapA.In gapSize := by decide
  have hBin : gapB.In gapSize := by decide
  have hsB : s gapB = LETHAL_OBSTACLE := (hs _ hBin).mpr (.inr rfl)
  have keep := Tags.spread_keeps (size := gapSize) (s := s) hh hpop (fun a => ∀ c ∈ gapCells, a.tag c ≠ some gapA) (by
    intro a pc rest hl hP hperm hmin c hc hcon
    have hpc : pc ∈ a.queue := hperm.mem_iff.mp (by simp)
    have hmin' : ∀ x ∈ a.queue, pc.dist ≤ x.dist := by
      intro x hx
      rcases List.mem_cons.mp (hperm.mem_iff.mpr hx) with rfl | h
      · exact le_rfl
      · exact hmin x h
    obtain ⟨hp1, -⟩ := hl.inv.q pc hpc
    obtain ⟨hcin, -, -, -⟩ := hl.inv.t _ _ hp1
    rcases Tags.enqs_new hyp 5 pc.src _ _ c gapA hcon with h | ⟨h1, h2, h3⟩
    · exact hP c hc h
    obtain ⟨hb, hcin'⟩ := (mem_nbrs hcin).mp h2
    simp only at h3
    rw [← h1] at hp1
    -- the front of `B` was there first
    have race : ∀ (e : Idx) (k : Nat), e.In gapSize → manhattan e gapB = k → k ≤ 5 → k * k < sqDist pc.cell gapA →
        a.tag e ≠ some gapA → Beside e c → sqDist c gapB ≤ 5 * 5 → False := by
      intro e k he hm hk hlt hne hbe hd
      obtain ⟨o, ho, -, hnq⟩ := hl.settled hh hpc hmin' hk (h1 ▸ hlt) he hBin hsB hm
      obtain ⟨-, h5, h6, -⟩ := hl.inv.t e o ho
      rcases (hs o h5).mp h6 with rfl | rfl
      · exact hne ho
      · rcases hl.closed e gapB ho hnq c hbe hcin' with h | h
        · rw [h3] at h; cases h
        · omega
    have nearB : ∀ e, a.tag e = some gapA → manhattan e gapB ≤ 5 →
        sqDist e gapA ≤ manhattan e gapB * manhattan e gapB := fun e he hm => hl.near e gapA he gapB hBin hsB hm
    have hb' : Beside c pc.cell := by unfold Beside manhattan at *; omega
    have hx := beside_iff.mp hb'
    generalize pc.cell = p at *
    simp only [gapCells, List.mem_cons, List.not_mem_nil, or_false] at hc
    have n23 : a.tag ⟨2, 3⟩ ≠ some gapA := fun h => absurd (nearB _ h (by decide)) (by decide)
    have n33 : a.tag ⟨3, 3⟩ ≠ some gapA := fun h => absurd (nearB _ h (by decide)) (by decide)
    have nin : ∀ q ∈ gapCells, p ≠ q := fun q hq h => hP q hq (h ▸ hp1)
    rcases hc with rfl | rfl | rfl | rfl | rfl | rfl <;> rcases hx with rfl | rfl | rfl | rfl <;>
      first
        | exact absurd hcin (by decide)
        | exact nin _ (by decide) rfl
        | exact n23 hp1
        | exact n33 hp1
        | exact race ⟨2, 3⟩ 2 (by decide) (by decide) (by decide) (by decide) n23 (by unfold Beside; decide) (by decide)
        | exact race ⟨2, 2⟩ 3 (by decide) (by decide) (by decide) (by decide) (hP _ (by decide)) (by unfold Beside; decide) (by decide)
        | exact race ⟨2, 1⟩ 4 (by decide) (by decide) (by decide) (by decide) (hP _ (by decide)) (by unfold Beside; decide) (by decide))
  obtain ⟨hl0, -⟩ := Loop.seeded (K := K) (s := s) (size := gapSize) hh
  obtain ⟨hl, -⟩ := Loop.run (K := K) (s := s) (size := gapSize) hh hpop
  have hstart : ∀ c ∈ gapCells, (Tags.seeds hyp 5 s (colMajor gapSize.x.toNat gapSize.y.toNat)
      (Tags.start : Tags K)).tag c ≠ some gapA := by
    intro c hc h
    obtain ⟨-, r2, -⟩ := Tags.seeds_spec (s := s) (size := gapSize) hh (colMajor gapSize.x.toNat gapSize.y.toNat) (Tags.start : Tags K)
      (colMajor_nodup _ _) (fun c hc => ⟨in_of_mem_cells hc, rfl⟩) Inv.start (by simp [Tags.start]) rfl
      (by simp [Tags.start])
    have := r2 c gapA h
    subst this
    revert hc; decide
  have hend := keep (gapSize.x.toNat * gapSize.y.toNat) hl0 hstart
  cases h : (Tags.run pop hyp 5 gapSize s).tag ⟨3, 0⟩ with
  | none => rfl
  | some o =>
    obtain ⟨-, h2, h3, h4⟩ := hl.inv.t _ _ h
    rcases (hs o h2).mp h3 with rfl | rfl
    · exact absurd h (hend _ (by decide))
    · exact absurd h4 (by decide)

end Inflation
end CostMapModel

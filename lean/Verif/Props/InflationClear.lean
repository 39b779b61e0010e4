import Verif.Props.Inflation

/-!
# C42: overlapping disks
-/

set_option linter.unusedSectionVars false

namespace CostMapModel
open Inflation CostMap
variable {K : Type} [Field K] [LinearOrder K] [IsStrictOrderedRing K] [FloorRing K]
variable {hyp : Nat → Nat → K} {n : Nat} {size : Idx} {s : Idx → Cost} {pop : Pop K}

/-- What is needed of a set of cells for it to belong to the obstacle `L`. -/
structure Basin (size : Idx) (s : Idx → Cost) (n : Nat) (L : Idx) (G : Idx → Prop) : Prop where
  inMap : ∀ e, G e → e.In size
  range : ∀ e, G e → sqDist e L ≤ n * n
  back : ∀ e, G e → e = L ∨ ∃ b, G b ∧ Beside b e ∧ sqDist b L < sqDist e L
  clear : ∀ e, G e → e ≠ L → ∀ q, q.In size → s q = LETHAL_OBSTACLE → q ≠ L →
    n * n < sqDist e q ∨ ∃ k, sqDist e L ≤ k * k ∧ (k + 1) * (k + 1) < sqDist e q

/-- The cells of the set that were reached were reached from `L`. -/
def Owned (L : Idx) (G : Idx → Prop) (a : Tags K) : Prop := ∀ e, G e → ∀ o, a.tag e = some o → o = L

/-- As long as a cell of the set was not reached, some cell of the set nearer to `L` is in the queue. -/
theorem Basin.waiting {L : Idx} {G : Idx → Prop} (hb : Basin size s n L G) (hs : s L = LETHAL_OBSTACLE) {a : Tags K} (hl : Loop hyp n size s a) (ho : Owned L G a) :
    ∀ (d : Nat) (e : Idx), sqDist e L = d → G e → a.tag e = none →
      ∃ x ∈ a.queue, x.src = L ∧ sqDist x.cell L < sqDist e L := by
  intro d
  induction d using Nat.strong_induction_on with
  | _ d ih =>
    intro e hd hG ht
    rcases hb.back e hG with rfl | ⟨b, hGb, hbe, hlt⟩
    · rw [hl.seeds e (hb.inMap e hG) hs] at ht; cases ht
    · cases htb : a.tag b with
      | none =>
        obtain ⟨x, hx, h1, h2⟩ := ih (sqDist b L) (by omega) b rfl hGb htb
        exact ⟨x, hx, h1, by omega⟩
      | some o =>
        obtain rfl := ho b hGb o htb
        by_cases hq : ∀ x ∈ a.queue, x.cell ≠ b
        · rcases hl.closed b o htb hq e hbe (hb.inMap e hG) with h | h
          · rw [ht] at h; cases h
          · have := hb.range e hG; omega
        · push Not at hq
          obtain ⟨x, hx, hxb⟩ := hq
          have := (hl.inv.q x hx).1
          rw [hxb, htb] at this
          exact ⟨x, hx, (Option.some.inj this).symm, by rw [hxb]; exact hlt⟩

/-- Enqueuing a neighbour of the popped cell does not take a cell of the set away from `L`. -/
theorem Basin.enqs (hh : HypOk hyp n) {L : Idx} {G : Idx → Prop} (hb : Basin size s n L G) (hs : s L = LETHAL_OBSTACLE)
    {a₀ : Tags K} (hl : Loop hyp n size s a₀) (ho : Owned L G a₀) {pc : InflateCell K}
    (hpc : pc ∈ a₀.queue) (hmin : ∀ x ∈ a₀.queue, pc.dist ≤ x.dist) :
    ∀ (xs : List Idx), (∀ e ∈ xs, Beside pc.cell e ∧ e.In size) → ∀ (a : Tags K), (∀ c o, a₀.tag c = some o → a.tag c = some o) →
      Owned L G a → Owned L G (xs.foldl (fun a e => a.enq hyp n e pc.src) a) := by
  obtain ⟨hp1, hp2⟩ := hl.inv.q pc hpc
  obtain ⟨-, hoin, hol, hsq⟩ := hl.inv.t _ _ hp1
  intro xs
  induction xs with
  | nil => intro _ a _ h; exact h
  | cons e xs ih =>
    intro hx a hext hown
    obtain ⟨hbe, hin⟩ := hx e (by simp)
    have hn := near_beside hbe hsq
    rw [List.foldl_cons]
    rcases a.enq_cases hh hn with ⟨-, e1⟩ | ⟨-, -, e1⟩ | ⟨ht, hd, e1⟩ <;> rw [e1]
    · exact ih (fun e he => hx e (by simp [he])) a hext hown
    · exact ih (fun e he => hx e (by simp [he])) a hext hown
    · refine ih (fun e he => hx e (by simp [he])) _ (fun c o h => ?_) (fun c hG o h => ?_)
      · have : c ≠ e := fun hce => by rw [← hce, hext c o h] at ht; cases ht
        simp only [this, if_false]; exact hext c o h
      · simp only at h
        by_cases hce : c = e
        · subst hce
          simp only [if_true, Option.some.injEq] at h
          subst h
          by_contra hne
          have ht0 : a₀.tag c = none := by
            by_contra hn0
            obtain ⟨o, ho⟩ := Option.ne_none_iff_exists'.mp hn0
            rw [hext c o ho] at ht; cases ht
          obtain ⟨x, hxq, hxs, hxd⟩ := hb.waiting hs hl ho _ c rfl hG ht0
          have hcL : c ≠ L := by
            rintro rfl
            rw [hl.seeds c hin hs] at ht0; cases ht0
          rcases hb.clear c hG hcL pc.src hoin hol hne with h | ⟨k, hk, hk'⟩
          · omega
          · -- compare the popped cell with the waiting one
            rcases Nat.lt_or_ge n k with hkn | hkn
            · have : n * n < (k + 1) * (k + 1) := Nat.mul_lt_mul_of_lt_of_le (by omega) (by omega) (by omega)
              omega
            · obtain ⟨q1, q2⟩ := hl.inv.q x hxq
              have hxsq := (hl.inv.t _ _ q1).2.2.2
              have nx : Near n x.cell x.src := by
                obtain ⟨h1, h2⟩ := sqDist_bounds hxsq
                exact ⟨by omega, by omega⟩
              have np : Near n pc.cell pc.src := by
                obtain ⟨h1, h2⟩ := sqDist_bounds hsq
                exact ⟨by omega, by omega⟩
              have h1 : x.dist ≤ (k : K) := by
                rw [q2]; exact (cdist_le_iff hh nx hkn).mpr (by rw [hxs]; omega)
              have h2 : pc.dist ≤ (k : K) := (hmin x hxq).trans h1
              rw [hp2] at h2
              have := sqDist_beside hbe ((cdist_le_iff hh np hkn).mp h2)
              omega
        · simp only [hce, if_false] at h
          exact hown c hG o h

theorem Basin.spread (hh : HypOk hyp n) (hpop : PopOk pop) {L : Idx} {G : Idx → Prop} (hb : Basin size s n L G)
    (hs : s L = LETHAL_OBSTACLE) : ∀ (f : Nat) {a : Tags K}, Loop hyp n size s a → Owned L G a →
    Owned L G (Tags.spread pop hyp n size f a)
  | 0, a, _, ho => ho
  | f + 1, a, hl, ho => by
    unfold Tags.spread
    by_cases hq : a.queue = []
    · rw [if_pos (by simp [hq])]; exact ho
    · rw [if_neg (by simpa using hq)]
      obtain ⟨pc, rest, e, hperm, hmin⟩ := hpop f a.queue hq
      rw [e]
      have hpc : pc ∈ a.queue := hperm.mem_iff.mp (by simp)
      have hmin' : ∀ x ∈ a.queue, pc.dist ≤ x.dist := by
        intro x hx
        rcases List.mem_cons.mp (hperm.mem_iff.mpr hx) with rfl | h
        · exact le_rfl
        · exact hmin x h
      obtain ⟨hcin, -, -, -⟩ := hl.inv.t _ _ (hl.inv.q pc hpc).1
      exact Basin.spread hh hpop hb hs f (hl.round hh hperm hmin)
        (hb.enqs hh hs hl ho hpc hmin' _ (fun e he => (mem_nbrs hcin).mp he) { a with queue := rest } (fun _ _ h => h) ho)

/-- In the end all cells of the set were reached from `L`. -/
theorem Basin.run (hh : HypOk hyp n) (hpop : PopOk pop) {L : Idx} {G : Idx → Prop} (hb : Basin size s n L G)
    (hs : s L = LETHAL_OBSTACLE) {e : Idx} (hG : G e) : (Tags.run pop hyp n size s).tag e = some L := by
  obtain ⟨r1, r2, r3, r4, r5, r6⟩ := Tags.seeds_spec (s := s) hh (colMajor size.x.toNat size.y.toNat) (Tags.start : Tags K)
    (colMajor_nodup _ _) (fun c hc => ⟨in_of_mem_cells hc, rfl⟩) Inv.start (by simp [Tags.start]) rfl
    (by simp [Tags.start])
  obtain ⟨hl0, -⟩ := Loop.seeded (hyp := hyp) (s := s) (size := size) hh
  have ho0 : Owned L G (Tags.seeds hyp n s (colMajor size.x.toNat size.y.toNat) (Tags.start : Tags K)) := by
    intro c hGc o hco
    have hoc := r2 c o hco
    subst hoc
    by_contra hne
    have hlo := (r1.t o o hco).2.2.1
    rcases hb.clear o hGc hne o (hb.inMap o hGc) hlo hne with h | ⟨k, -, h⟩
    · rw [sqDist_self] at h; omega
    · rw [sqDist_self] at h; omega
  have ho : Owned L G (Tags.run pop hyp n size s) := hb.spread hh hpop hs _ hl0 ho0
  obtain ⟨hl, hq⟩ := Loop.run (size := size) (s := s) hh hpop
  cases ht : (Tags.run pop hyp n size s).tag e with
  | some o => rw [ho e hG o ht]
  | none =>
    obtain ⟨x, hx, -⟩ := hb.waiting hs hl ho _ e rfl hG ht
    rw [hq] at hx; cases hx

variable {m : CostMap K} {o : Inflater K} {computer : K → Cost} {radius : K}

/-- C42, partial, for disks that overlap. A cell that can be reached from an obstacle by steps away from it, over cells to which it is clearly
the nearest obstacle, is inflated with its exact distance from that obstacle. Missing: the cells near the border
between two obstacles and behind it, some of which are not inflated at all (`C42_false`). -/
theorem C42_clear_path_partial (hc : m.Coherent) (hres : 0 < m.resolution) {ls : String}
    (hls : m.exists ls = true) (ld : String) (hn : radiusInCells radius m.resolution < 2 ^ 32 - 1) (hpop : PopOk pop)
    (hh : HypOk hyp (radiusInCells radius m.resolution)) (ho : Used hyp computer m.resolution o) (log : List Idx) :
    ∃ st', inflate pop hyp ls ld radius computer ⟨o, m, log⟩ = (.ok (), st') ∧
      ∀ L i v, m.Lethal ls L → m.ClearPath ls (radiusInCells radius m.resolution) L i → m.at ls i = .ok v →
        i ∈ st'.pushed ∧ st'.map.at ld i = .ok (combined v (inflationCost hyp computer m.resolution i L)) := by
  obtain ⟨st', s, h1, h2, h3, h4, h5, h6, h7, hs, h8, h9, h10⟩ :=
    inflate_run hc hres hls ld hn hpop hh (Used.ready ho).1 (.inr (Used.ready ho)) log
  obtain ⟨hl, hq⟩ := Loop.run (size := m.size) (s := s) hh hpop
  refine ⟨st', h1, ?_⟩
  rintro L i v ⟨hL, hLat⟩ hpath hv
  rw [hs L hL] at hLat
  have hLs : s L = LETHAL_OBSTACLE := by injection hLat
  have hbasin : Basin m.size s (radiusInCells radius m.resolution) L (m.ClearPath ls (radiusInCells radius m.resolution) L) := by
    refine ⟨fun e he => ?_, fun e he => ?_, fun e he => ?_, fun e he hne q hqin hqs hqL => ?_⟩
    · cases he with
      | start => exact hL
      | step _ _ _ _ hin _ => exact hin
    · cases he with
      | start => rw [sqDist_self]; omega
      | step _ _ _ hr _ _ => exact hr
    · cases he with
      | start => exact .inl rfl
      | step h hst hf _ _ _ => exact .inr ⟨_, h, hst, hf⟩
    · cases he with
      | start => exact absurd rfl hne
      | step _ _ _ _ _ hcl => exact hcl q ⟨hqin, by rw [hs q hqin, hqs]⟩ hqL
  have hi := hbasin.inMap i hpath
  rw [hs i hi] at hv; cases hv
  have ht := hbasin.run hh hpop hLs hpath
  refine ⟨by rw [h9, hl.inv.pm, ht]; rfl, ?_⟩
  rw [h8 i hi]
  unfold Tags.out
  rw [ht]
  simp only [superimpose_eq_combined]

/-- Two obstacles six cells apart. -/
def Demo.facing : CostMap ℚ := Demo.grid 7 3 fun i j => if (i = 0 ∧ j = 1) ∨ (i = 6 ∧ j = 1) then 254 else 0

-- the hypotheses hold: with a radius of four cells the disks overlap; two cells from the first obstacle its cost is written
example : ∃ st', inflate Demo.pop Demo.hyp "s" "t" 4 Demo.falling ⟨Inflater.new, Demo.facing, []⟩ = (.ok (), st') ∧
    st'.map.at "t" ⟨2, 1⟩ = .ok 30 := by
  have hrad : radiusInCells 4 Demo.facing.resolution = 4 := by decide +kernel
  obtain ⟨st', h1, h2⟩ := C42_clear_path_partial (m := Demo.facing) (radius := 4) (pop := Demo.pop) (hyp := Demo.hyp)
    (computer := Demo.falling) (Demo.grid_coherent _ _ _) (by decide +kernel) (ls := "s") (by decide +kernel) "t"
    (by rw [hrad]; decide) Demo.pop_ok (Demo.hyp_ok _) Used.new []
  refine ⟨st', h1, ?_⟩
  rw [hrad] at h2
  have clear : ∀ e : Idx, (e = ⟨1, 1⟩ ∨ e = ⟨2, 1⟩) → Demo.facing.ClearlyNearest "s" 4 ⟨0, 1⟩ e := by
    intro e he q ⟨hq, hqat⟩ hne
    have hall : ∀ q ∈ colMajor 7 3, Demo.facing.at "s" q = .ok LETHAL_OBSTACLE → q ≠ ⟨0, 1⟩ → q = ⟨6, 1⟩ := by decide +kernel
    obtain rfl := hall q (by
      have hsz : Demo.facing.size = ⟨7, 3⟩ := by decide +kernel
      rw [hsz] at hq
      exact mem_cells_of_in (size := ⟨7, 3⟩) hq) hqat hne
    rcases he with rfl | rfl
    · left; decide
    · right; exact ⟨2, by decide, by decide⟩
  have p1 : Demo.facing.ClearPath "s" 4 ⟨0, 1⟩ ⟨1, 1⟩ := .step .start (by decide) (by decide) (by decide) (by decide +kernel) (clear _ (.inl rfl))
  have p2 : Demo.facing.ClearPath "s" 4 ⟨0, 1⟩ ⟨2, 1⟩ := .step p1 (by decide) (by decide) (by decide) (by decide +kernel) (clear _ (.inr rfl))
  rw [(h2 ⟨0, 1⟩ ⟨2, 1⟩ 0 ⟨by decide +kernel, by decide +kernel⟩ p2 (by decide +kernel)).2]
  decide +kernel

end CostMapModel

import Verif.Lemmas.Inflation

/-! # The code of inflation follows the run on tags -/

set_option linter.unusedSectionVars false

namespace CostMapModel
namespace Inflation
variable {K : Type} [Field K] [LinearOrder K] [IsStrictOrderedRing K] [FloorRing K]
variable {hyp : Nat → Nat → K} {computer : K → Cost} {res : K} {n : Nat} {m : CostMap K} {s : Idx → Cost}
  {ls ld : String} {pop : Pop K}

theorem Follows.seeds (hc : m.Coherent) (hld : m.exists ld = true) (hs : ∀ i, i.In m.size → m.at ls i = .ok (s i)) :
    ∀ {xs : List Idx}, xs.Nodup → ∀ {st : Inflation K} {a : Tags K}, (∀ c ∈ xs, c.In m.size ∧ a.tag c = none) →
      Follows hyp computer res n m s ld st a →
      ∃ st', Act.forEach (seed ls ld) xs st = (.ok (), st') ∧
        Follows hyp computer res n m s ld st' (Tags.seeds hyp n s xs a)
  | [], _, st, a, _, hf => ⟨st, rfl, hf⟩
  | c :: xs, hn, st, a, hx, hf => by
    rw [List.nodup_cons] at hn
    obtain ⟨hci, hct⟩ := hx c (by simp)
    have e0 : (Act.read fun st : Inflation K => st.map.at ls c) st = (.ok (s c), st) := by
      simp only [Act.read, hf.source hs hci fun _ => hct]
    have step : ∃ st', seed ls ld c st = (.ok (), st') ∧ Follows hyp computer res n m s ld st'
        (if s c = LETHAL_OBSTACLE then a.enq hyp n c c else a) := by
      unfold seed
      rw [Act.bind_ok e0]
      by_cases hl : s c = LETHAL_OBSTACLE
      · rw [if_pos hl, if_pos hl]
        exact hf.enqueue hc hld hs hci (near_self n c)
      · rw [if_neg hl, if_neg hl]; exact ⟨st, rfl, hf⟩
    obtain ⟨st', e, hf'⟩ := step
    obtain ⟨st'', e', hf''⟩ := Follows.seeds hc hld hs hn.2 (fun c' hc' => by
      refine ⟨(hx c' (by simp [hc'])).1, ?_⟩
      have hne : c' ≠ c := fun h => hn.1 (h ▸ hc')
      have ht := (hx c' (by simp [hc'])).2
      split
      · unfold Tags.enq
        split
        · exact ht
        · split
          · exact ht
          · simp only [hne, if_false]; exact ht
      · exact ht) hf'
    exact ⟨st'', by rw [Act.forEach, Act.bind_ok e, e'], hf''⟩

theorem Follows.spread (hh : HypOk hyp n) (hpop : PopOk pop) (hc : m.Coherent) (hld : m.exists ld = true)
    (hs : ∀ i, i.In m.size → m.at ls i = .ok (s i)) : ∀ (f : Nat) {st : Inflation K} {a : Tags K},
    Follows hyp computer res n m s ld st a → Loop hyp n m.size s a →
    m.size.x.toNat * m.size.y.toNat + a.queue.length ≤ f + a.pushed.length →
    ∃ st', Inflation.spread pop ls ld f st = (.ok (), st') ∧
      Follows hyp computer res n m s ld st' (Tags.spread pop hyp n m.size f a)
  | 0, st, a, hf, hl, hcount => by
    have := hl.inv.count
    have hq : a.queue = [] := List.length_eq_zero_iff.mp (by omega)
    refine ⟨st, ?_, hf⟩
    unfold Inflation.spread
    rw [if_pos (by rw [hf.queue, hq]; rfl)]
  | f + 1, st, a, hf, hl, hcount => by
    unfold Inflation.spread Tags.spread
    by_cases hq : a.queue = []
    · rw [if_pos (by rw [hf.queue, hq]; rfl), if_pos (by rw [hq]; rfl)]
      exact ⟨st, rfl, hf⟩
    · rw [if_neg (by rw [hf.queue]; simpa using hq), if_neg (by simpa using hq), hf.queue]
      obtain ⟨pc, rest, e, hperm, hmin⟩ := hpop f a.queue hq
      rw [e]
      simp only
      have hpc : pc ∈ a.queue := hperm.mem_iff.mp (by simp)
      obtain ⟨hp1, -⟩ := hl.inv.q pc hpc
      obtain ⟨hcin, -, -, hsq⟩ := hl.inv.t _ _ hp1
      have hf0 : Follows hyp computer res n m s ld { st with obj := { st.obj with queue := rest } }
          { a with queue := rest } :=
        ⟨hf.shape, hf.others, hf.dest, hf.rows, hf.cols, hf.seen, rfl, hf.pushed, hf.radius, hf.distances, hf.costs⟩
      obtain ⟨st', e', hf'⟩ := Follows.enqueues hc hld hs (o := pc.src) (xs := nbrs m.size pc.cell)
        (fun x hx => ⟨((mem_nbrs hcin).mp hx).2, near_beside ((mem_nbrs hcin).mp hx).1 hsq⟩) hf0
      have h1 := Tags.enqs_count (hyp := hyp) (n := n) pc.src (nbrs m.size pc.cell) { a with queue := rest }
      have h2 := hperm.length_eq
      simp only [List.length_cons] at h1 h2
      obtain ⟨st'', e'', hf''⟩ := Follows.spread hh hpop hc hld hs f hf' (hl.round hh hperm hmin) (by omega)
      refine ⟨st'', ?_, hf''⟩
      have ev : visit ls ld pc.cell pc.src { st with obj := { st.obj with queue := rest } } = (.ok (), st') := by
        rw [visit_eq]
        have : ({ st with obj := { st.obj with queue := rest } } : Inflation K).map.size = m.size := hf.shape.geo.size
        rw [this]; exact e'
      rw [Act.bind_ok ev]
      exact e''

/-- The caches of an object belong to a resolution and a computer, unless they were never filled. -/
def Ready (hyp : Nat → Nat → K) (computer : K → Cost) (res : K) (o : Inflater K) : Prop :=
  o.queue = [] ∧ (o.cellRadius = 2 ^ 32 - 1 ∨
    (o.distances = Mat.ofFn (o.cellRadius + 2) (o.cellRadius + 2) fun i j => hyp i.toNat j.toNat) ∧
    o.costs = Mat.ofFn (o.cellRadius + 2) (o.cellRadius + 2) fun i j => computer (res * hyp i.toNat j.toNat))

theorem Ready.new (hyp : Nat → Nat → K) (computer : K → Cost) (res : K) : Ready hyp computer res Inflater.new :=
  ⟨rfl, .inl rfl⟩

/-- The whole call. -/
theorem inflate_eq {o : Inflater K} {m : CostMap K} (hc : m.Coherent) {ls ld : String} (hls : m.exists ls = true)
    {radius : K} {computer : K → Cost} {n : Nat} (hn : cellsOf radius m.resolution = some n) (hn' : n ≠ 2 ^ 32 - 1)
    (hpop : PopOk pop) (hh : HypOk hyp n)
    (ho : o.queue = []) (hcache : o.cellRadius ≠ n ∨ Ready hyp computer m.resolution o)
    {s : Idx → Cost} (hs : ∀ i, i.In m.size → m.at ls i = .ok (s i)) (log : List Idx) :
    ∃ st', inflate pop hyp ls ld radius computer ⟨o, m, log⟩ = (.ok (), st') ∧
      CostMap.SameGeometry m st'.map ∧ CostMap.SameMeta m st'.map ∧
      st'.map.layers = (if m.exists ld then m.layers else m.layers ++ [ld]) ∧
      (∀ l, l ≠ ld → st'.map.data l = m.data l) ∧ st'.map.exists ld = true ∧ st'.map.Coherent ∧
      (∀ i, i.In m.size → st'.map.at ld i =
        .ok ((Tags.run pop hyp n m.size s).out (inflationCost hyp computer m.resolution) s i)) ∧
      st'.pushed = (Tags.run pop hyp n m.size s).pushed ∧
      st'.obj.cellRadius = n ∧ Ready hyp computer m.resolution st'.obj := by
  obtain ⟨src, hsrc⟩ := CostMap.exists_iff.mp hls
  obtain ⟨hr, hcl⟩ := hc.dims ls src hsrc
  -- after `add`
  have hadd : ∃ m1, CostMap.add ld src m = (.ok (), m1) ∧ CostMap.SameGeometry m m1 ∧ CostMap.SameMeta m m1 ∧
      m1.layers = (if m.exists ld then m.layers else m.layers ++ [ld]) ∧
      (∀ l, m1.data l = if l = ld then some src else m.data l) := by
    unfold CostMap.add
    rw [if_neg (by simp [hr]), if_neg (by simp [hcl])]
    by_cases hex : m.exists ld = true
    · rw [if_pos hex]
      exact ⟨_, rfl, ⟨rfl, rfl, rfl, rfl, rfl⟩, ⟨rfl, rfl, rfl⟩, by rw [if_pos hex]; rfl, fun _ => rfl⟩
    · rw [if_neg hex]
      exact ⟨_, rfl, ⟨rfl, rfl, rfl, rfl, rfl⟩, ⟨rfl, rfl, rfl⟩, by rw [if_neg hex], fun _ => rfl⟩
  obtain ⟨m1, eadd, hg1, hm1, hl1, hd1⟩ := hadd
  have hc1 : m1.Coherent := by
    have := CostMap.add_coherent ld src m hc
    rw [eadd] at this; exact this
  have hld1 : m1.exists ld = true := by unfold CostMap.exists; rw [hd1, if_pos rfl]; rfl
  have hsize : m1.size = m.size := hg1.size
  have hres : m1.resolution = m.resolution := hg1.resolution
  have hat1 : ∀ i, i.In m.size → m1.at ld i = .ok (s i) := by
    intro i hi
    rw [CostMap.at_eq (a := src) (by rw [hd1, if_pos rfl]), ← CostMap.at_eq hsrc, hs i hi]
  have hats : ∀ i, i.In m1.size → m1.at ls i = .ok (s i) := by
    intro i hi
    rw [hsize] at hi
    rw [CostMap.at_eq (a := src) (by rw [hd1]; split <;> [rfl; exact hsrc]), ← CostMap.at_eq hsrc, hs i hi]
  have hsx : (m1.size.x.toNat : Int) = m1.size.x ∧ (m1.size.y.toNat : Int) = m1.size.y := by
    rw [hsize, ← hr, ← hcl]; simp
  -- after `prepare`
  have hprep : ∃ o', prepare hyp radius computer ⟨o, m1, []⟩ = (.ok (), ⟨o', m1, []⟩) ∧ o'.queue = [] ∧
      o'.cellRadius = n ∧ o'.seen = Mat.const m1.size.x.toNat m1.size.y.toNat false ∧
      (o'.distances = Mat.ofFn (n + 2) (n + 2) fun i j => hyp i.toNat j.toNat) ∧
      o'.costs = Mat.ofFn (n + 2) (n + 2) fun i j => computer (m.resolution * hyp i.toNat j.toNat) := by
    unfold prepare
    simp only [hres, hn]
    by_cases hne : n = o.cellRadius
    · rw [if_neg (by simpa using hne)]
      refine ⟨_, rfl, ho, hne.symm, rfl, ?_⟩
      rcases hcache with h | h
      · exact absurd hne.symm h
      · rcases h.2 with h | h
        · exact absurd (hne.trans h) hn'
        · rw [← hne] at h; exact h
    · rw [if_pos (by simpa using hne)]
      exact ⟨_, rfl, ho, rfl, rfl, rfl, rfl⟩
  obtain ⟨o', eprep, hq', hrad', hseen', hdist', hcost'⟩ := hprep
  have hf0 : Follows hyp computer m.resolution n m1 s ld ⟨o', m1, []⟩ Tags.start := by
    refine ⟨CostMap.SameShape.refl m1, fun _ _ => rfl, ?_, ?_, ?_, ?_, hq', rfl, hrad', hdist', hcost'⟩
    · intro i hi; rw [hsize] at hi; exact hat1 i hi
    · simp only [hseen', Mat.rows_const]; exact hsx.1
    · simp only [hseen', Mat.cols_const]; exact hsx.2
    · intro i hi
      simp only [hseen']
      rw [Mat.get?_const, if_pos (by unfold Idx.In at hi; omega)]
      rfl
  have hrows : src.rows = m1.size.x.toNat ∧ src.cols = m1.size.y.toNat := by
    rw [hsize]; omega
  obtain ⟨st1, e1, hf1⟩ := Follows.seeds hc1 hld1 hats (colMajor_nodup m1.size.x.toNat m1.size.y.toNat)
    (fun c hc => ⟨in_of_mem_cells hc, rfl⟩) hf0
  obtain ⟨hloop, hcount⟩ := Loop.seeded (K := K) (s := s) (size := m1.size) hh
  obtain ⟨st2, e2, hf2⟩ := Follows.spread hh hpop hc1 hld1 hats (m1.size.x.toNat * m1.size.y.toNat) hf1 hloop (by omega)
  obtain ⟨-, hqe⟩ := Loop.run (K := K) (s := s) (size := m1.size) hh hpop
  refine ⟨st2, ?_, ?_, ?_, ?_, ?_, ?_, hf2.shape.coherent hc1, ?_, ?_, hf2.radius, ?_⟩
  · unfold inflate
    rw [Act.bind_ok (show (Act.modify fun st : Inflation K => { st with pushed := [] }) ⟨o, m, log⟩ =
      (.ok (), ⟨o, m, []⟩) from rfl)]
    rw [Act.bind_ok (s' := ⟨o, m, []⟩) (a := src) (by simp only [Act.read, CostMap.get, hsrc])]
    rw [Act.bind_ok (s' := ⟨o, m1, []⟩) (a := ()) (by simp only [onMap, eadd])]
    rw [Act.bind_ok eprep]
    rw [hrows.1, hrows.2, Act.bind_ok e1]
    rw [Act.bind_ok (show (Act.get : Act (Inflation K) _) st1 = (.ok st1, st1) from rfl), hf1.shape.geo.size]
    exact e2
  · exact ⟨hf2.shape.geo.length.trans hg1.length, hf2.shape.geo.resolution.trans hg1.resolution,
      hf2.shape.geo.position.trans hg1.position, hf2.shape.geo.size.trans hg1.size,
      hf2.shape.geo.startIndex.trans hg1.startIndex⟩
  · exact ⟨hf2.shape.info.frameId.trans hm1.frameId, hf2.shape.info.timestamp.trans hm1.timestamp,
      hf2.shape.info.basicLayers.trans hm1.basicLayers⟩
  · rw [hf2.shape.layers, hl1]
  · intro l hl; rw [hf2.others l hl, hd1, if_neg hl]
  · have := hf2.shape.isSome ld
    unfold CostMap.exists at *; rw [this]; exact hld1
  · intro i hi
    have := hf2.dest i (by rw [hsize]; exact hi)
    rw [hsize] at this; exact this
  · rw [hf2.pushed, hsize]; rfl
  · refine ⟨by rw [hf2.queue]; exact hqe, .inr ?_⟩
    rw [hf2.radius]; exact ⟨hf2.distances, hf2.costs⟩

end Inflation
end CostMapModel

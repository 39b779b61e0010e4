import Verif.Lemmas.InflationRun

/-! # Repeated use of an inflation object -/

set_option linter.unusedSectionVars false

namespace CostMapModel

theorem Act.bind_eq_ok {σ α β : Type} {f : Act σ α} {g : α → Act σ β} {s s' : σ} {b : β}
    (h : Act.bind f g s = (.ok b, s')) : ∃ a s1, f s = (.ok a, s1) ∧ g a s1 = (.ok b, s') := by
  unfold Act.bind at h
  split at h
  · rename_i a s1 e; exact ⟨a, s1, e, h⟩
  all_goals cases h

theorem Act.bind_congr {σ α β : Type} {f f' : Act σ α} {g g' : α → Act σ β} {s : σ} (hf : f s = f' s)
    (hg : ∀ a s', f s = (.ok a, s') → g a s' = g' a s') : Act.bind f g s = Act.bind f' g' s := by
  unfold Act.bind
  rw [← hf]
  split
  · rename_i a s' e; exact hg a s' e
  all_goals rfl

theorem Act.Keeps.read {σ α : Type} {P : σ → Prop} (f : σ → Res α) : Act.Keeps P (Act.read f) := fun _ h => h
theorem Act.Keeps.get {σ : Type} {P : σ → Prop} : Act.Keeps P (Act.get : Act σ σ) := fun _ h => h

namespace Inflation
variable {K : Type} [Field K] [LinearOrder K] [IsStrictOrderedRing K] [FloorRing K]

/-- The tables of an object. -/
def Tables (r : Nat) (d : Mat K) (c : Mat Cost) (st : Inflation K) : Prop :=
  st.obj.cellRadius = r ∧ st.obj.distances = d ∧ st.obj.costs = c

variable {r : Nat} {d : Mat K} {c : Mat Cost}

theorem onMap_tables {α : Type} (f : Act (CostMap K) α) : Act.Keeps (Tables r d c) (onMap f) := fun _ h => h

theorem enqueue_tables (ls ld : String) (i o : Idx) : Act.Keeps (Tables r d c) (enqueue ls ld i o) := by
  refine (Act.Keeps.read _).bind fun seen => ?_
  split
  · exact Act.Keeps.pure ()
  · refine (Act.Keeps.read _).bind fun dist => Act.Keeps.get.bind fun s => ?_
    split
    · exact Act.Keeps.pure ()
    · exact (Act.Keeps.read _).bind fun cost => (Act.Keeps.read _).bind fun old => (onMap_tables _).bind fun _ =>
        fun _ h => h

theorem seed_tables (ls ld : String) (i : Idx) : Act.Keeps (Tables r d c) (seed ls ld i) := by
  refine (Act.Keeps.read _).bind fun cost => ?_
  split
  · exact enqueue_tables _ _ _ _
  · exact Act.Keeps.pure ()

theorem visit_tables (ls ld : String) (i o : Idx) : Act.Keeps (Tables r d c) (visit ls ld i o) := by
  intro st h
  rw [visit_eq]
  exact Act.Keeps.forEach (fun e => enqueue_tables ls ld e o) _ st h

theorem spread_tables (pop : Pop K) (ls ld : String) : ∀ f, Act.Keeps (Tables r d c) (spread pop ls ld f)
  | 0 => by
    intro st h
    unfold spread
    split <;> exact h
  | f + 1 => by
    intro st h
    unfold spread
    split
    · exact h
    · split
      · exact h
      · exact (visit_tables ls ld _ _).bind (fun _ => spread_tables pop ls ld f) _ h

theorem spread_queue {pop : Pop K} {ls ld : String} : ∀ {f : Nat} {st st' : Inflation K},
    spread pop ls ld f st = (.ok (), st') → st'.obj.queue = []
  | 0, st, st', h => by
    unfold spread at h
    split at h
    · rename_i hq
      cases h; simpa using hq
    · cases h
  | f + 1, st, st', h => by
    unfold spread at h
    split at h
    · rename_i hq
      cases h; simpa using hq
    · split at h
      · cases h
      · obtain ⟨_, s1, -, e⟩ := Act.bind_eq_ok h
        exact spread_queue e

/-- After a call an object is as it was, or ready for the computer and the resolution of the call. -/
theorem inflate_ready {pop : Pop K} {hyp : Nat → Nat → K} {computer computer₀ : K → Cost} {radius res : K} {m : CostMap K}
    {o : Inflater K} {ls ld : String} {log : List Idx} {st : Inflation K} (ih : Ready hyp computer₀ res o)
    (hr : inflate pop hyp ls ld radius computer ⟨o, m, log⟩ = (.ok (), st)) :
    Ready hyp computer₀ res st.obj ∨ Ready hyp computer m.resolution st.obj := by
  unfold inflate at hr
  obtain ⟨_, s1, e1, hr⟩ := Act.bind_eq_ok hr
  cases e1
  obtain ⟨src, s2, e2, hr⟩ := Act.bind_eq_ok hr
  obtain rfl : s2 = ⟨o, m, []⟩ := (congrArg Prod.snd e2).symm
  obtain ⟨_, s3, e3, hr⟩ := Act.bind_eq_ok hr
  obtain ⟨_, s4, e4, hr⟩ := Act.bind_eq_ok hr
  obtain ⟨_, s5, e5, hr⟩ := Act.bind_eq_ok hr
  obtain ⟨s5', s6, e6, hr⟩ := Act.bind_eq_ok hr
  cases e6
  have ho3 : s3.obj = o := by
    have e : _ = s3 := congrArg Prod.snd e3
    rw [← e]; rfl
  have hres : s3.map.resolution = m.resolution := by
    have e : _ = s3 := congrArg Prod.snd e3
    rw [← e]
    simp only [onMap, CostMap.add]
    split
    · rfl
    · split
      · rfl
      · split <;> rfl
  have h5 := Act.Keeps.forEach (P := Tables s4.obj.cellRadius s4.obj.distances s4.obj.costs)
    (fun i => seed_tables ls ld i) (colMajor src.rows src.cols) s4 ⟨rfl, rfl, rfl⟩
  rw [e5] at h5
  have h6 := spread_tables (r := s4.obj.cellRadius) (d := s4.obj.distances) (c := s4.obj.costs) pop ls ld
    (s5.map.size.x.toNat * s5.map.size.y.toNat) s5 h5
  rw [hr] at h6
  obtain ⟨t1, t2, t3⟩ := h6
  simp only at t1 t2 t3
  have hq := spread_queue hr
  unfold prepare at e4
  simp only at e4
  split at e4
  · cases e4
  · split at e4
    · cases e4
      refine .inr ⟨hq, .inr ?_⟩
      rw [t1, t2, t3]
      refine ⟨rfl, ?_⟩
      simp only [computeCaches, hres]
    · cases e4
      refine .inl ⟨hq, ?_⟩
      rw [t1, t2, t3, ho3]
      exact ih.2

/-- A used object is ready for its computer and resolution. -/
theorem Used.ready {hyp : Nat → Nat → K} {computer : K → Cost} {res : K} {o : Inflater K}
    (h : Used hyp computer res o) : Ready hyp computer res o := by
  induction h with
  | new => exact Ready.new hyp computer res
  | call h pop ls ld radius m log hm hr ih =>
    rcases inflate_ready ih hr with h | h
    · exact h
    · exact hm ▸ h

/-- A used object is ready for some computer and resolution. -/
theorem UsedAny.ready {hyp : Nat → Nat → K} {o : Inflater K} (h : UsedAny hyp o) :
    ∃ computer res, Ready hyp computer res o := by
  induction h with
  | new => exact ⟨fun _ => 0, 0, Ready.new hyp _ _⟩
  | call h pop ls ld radius computer m log hr ih =>
    obtain ⟨c, r, ih⟩ := ih
    rcases inflate_ready ih hr with h | h
    · exact ⟨_, _, h⟩
    · exact ⟨_, _, h⟩

theorem UsedAny.queue {hyp : Nat → Nat → K} {o : Inflater K} (h : UsedAny hyp o) : o.queue = [] := by
  cases h with
  | new => rfl
  | call h pop ls ld radius computer m log hr =>
    unfold inflate at hr
    obtain ⟨_, s1, e1, hr⟩ := Act.bind_eq_ok hr
    obtain ⟨src, s2, e2, hr⟩ := Act.bind_eq_ok hr
    obtain ⟨_, s3, e3, hr⟩ := Act.bind_eq_ok hr
    obtain ⟨_, s4, e4, hr⟩ := Act.bind_eq_ok hr
    obtain ⟨_, s5, e5, hr⟩ := Act.bind_eq_ok hr
    obtain ⟨s5', s6, e6, hr⟩ := Act.bind_eq_ok hr
    exact spread_queue hr

/-- The radius an object remembers is that of its last call. -/
theorem inflate_cellRadius {pop : Pop K} {hyp : Nat → Nat → K} {computer : K → Cost} {radius : K} {m : CostMap K}
    {o : Inflater K} {ls ld : String} {log : List Idx} {st : Inflation K} (hres : 0 < m.resolution)
    (hr : inflate pop hyp ls ld radius computer ⟨o, m, log⟩ = (.ok (), st)) :
    st.obj.cellRadius = radiusInCells radius m.resolution := by
  unfold inflate at hr
  obtain ⟨_, s1, e1, hr⟩ := Act.bind_eq_ok hr
  cases e1
  obtain ⟨src, s2, e2, hr⟩ := Act.bind_eq_ok hr
  obtain rfl : s2 = ⟨o, m, []⟩ := (congrArg Prod.snd e2).symm
  obtain ⟨_, s3, e3, hr⟩ := Act.bind_eq_ok hr
  obtain ⟨_, s4, e4, hr⟩ := Act.bind_eq_ok hr
  obtain ⟨_, s5, e5, hr⟩ := Act.bind_eq_ok hr
  obtain ⟨s5', s6, e6, hr⟩ := Act.bind_eq_ok hr
  cases e6
  have hres3 : s3.map.resolution = m.resolution := by
    have e : _ = s3 := congrArg Prod.snd e3
    rw [← e]
    simp only [onMap, CostMap.add]
    split
    · rfl
    · split
      · rfl
      · split <;> rfl
  have h4 : s4.obj.cellRadius = radiusInCells radius m.resolution := by
    unfold prepare at e4
    simp only at e4
    split at e4
    · cases e4
    · rename_i n hn
      have hnn : n = radiusInCells radius m.resolution := by
        rw [hres3] at hn
        unfold cellsOf at hn
        rw [if_neg hres.ne'] at hn
        split at hn
        · cases hn; rfl
        · cases hn
      split at e4
      · cases e4; exact hnn
      · rename_i h
        cases e4
        simp only [ne_eq, not_not] at h
        rw [← hnn]; exact h.symm
  have h5 := Act.Keeps.forEach (P := Tables s4.obj.cellRadius s4.obj.distances s4.obj.costs)
    (fun i => seed_tables ls ld i) (colMajor src.rows src.cols) s4 ⟨rfl, rfl, rfl⟩
  rw [e5] at h5
  have h6 := spread_tables (r := s4.obj.cellRadius) (d := s4.obj.distances) (c := s4.obj.costs) pop ls ld
    (s5.map.size.x.toNat * s5.map.size.y.toNat) s5 h5
  rw [hr] at h6
  exact h6.1.trans h4

/-- With the radius in cells an object remembers the computer is not used. -/
theorem inflate_computer {pop : Pop K} {hyp : Nat → Nat → K} {radius : K} {m : CostMap K} {o : Inflater K}
    (hres : 0 < m.resolution) (hrad : o.cellRadius = radiusInCells radius m.resolution) (ls ld : String)
    (computer₁ computer₂ : K → Cost) (log : List Idx) :
    inflate pop hyp ls ld radius computer₁ ⟨o, m, log⟩ = inflate pop hyp ls ld radius computer₂ ⟨o, m, log⟩ := by
  unfold inflate
  refine Act.bind_congr rfl fun _ st hst => ?_
  obtain rfl : st = ⟨o, m, []⟩ := (congrArg Prod.snd hst).symm
  refine Act.bind_congr rfl fun src st hst => ?_
  obtain rfl : st = ⟨o, m, []⟩ := (congrArg Prod.snd hst).symm
  refine Act.bind_congr rfl fun _ st hst => ?_
  have e : _ = st := congrArg Prod.snd hst
  have ho : st.obj = o := by rw [← e]; rfl
  have hres3 : st.map.resolution = m.resolution := by
    rw [← e]
    simp only [onMap, CostMap.add]
    split
    · rfl
    · split
      · rfl
      · split <;> rfl
  have hp : ∀ c : K → Cost, prepare hyp radius c st =
      match cellsOf radius m.resolution with
      | none => (.ub, { st with obj := { st.obj with seen := Mat.const st.map.size.x.toNat st.map.size.y.toNat false } })
      | some _ => (.ok (), { st with obj :=
          { st.obj with seen := Mat.const st.map.size.x.toNat st.map.size.y.toNat false } }) := by
    intro c
    unfold prepare
    simp only [hres3, ho]
    unfold cellsOf
    rw [if_neg hres.ne']
    by_cases hlt : ⌈radius / m.resolution⌉.toNat < 2 ^ 32
    · simp only [hlt, if_true]
      rw [if_neg]
      simp only [ne_eq, not_not]
      rw [hrad]; rfl
    · simp only [hlt, if_false]
  refine Act.bind_congr ?_ fun _ _ _ => rfl
  rw [hp, hp]

/-- What a call does, in terms of the run on tags. -/
theorem inflate_run {pop : Pop K} {hyp : Nat → Nat → K} {computer : K → Cost} {radius : K} {m : CostMap K}
    {o : Inflater K} (hc : m.Coherent) (hres : 0 < m.resolution) {ls : String} (hls : m.exists ls = true) (ld : String)
    (hn : radiusInCells radius m.resolution < 2 ^ 32 - 1) (hpop : PopOk pop)
    (hh : HypOk hyp (radiusInCells radius m.resolution)) (hq : o.queue = [])
    (ho : o.cellRadius ≠ radiusInCells radius m.resolution ∨ Ready hyp computer m.resolution o) (log : List Idx) :
    ∃ st' s, inflate pop hyp ls ld radius computer ⟨o, m, log⟩ = (.ok (), st') ∧
      CostMap.SameGeometry m st'.map ∧ CostMap.SameMeta m st'.map ∧
      st'.map.layers = (if m.exists ld then m.layers else m.layers ++ [ld]) ∧
      (∀ l, l ≠ ld → st'.map.data l = m.data l) ∧ st'.map.exists ld = true ∧ st'.map.Coherent ∧
      (∀ i, i.In m.size → m.at ls i = .ok (s i)) ∧
      (∀ i, i.In m.size → st'.map.at ld i = .ok ((Tags.run pop hyp (radiusInCells radius m.resolution) m.size s).out
        (inflationCost hyp computer m.resolution) s i)) ∧
      st'.pushed = (Tags.run pop hyp (radiusInCells radius m.resolution) m.size s).pushed ∧
      st'.obj.queue = [] := by
  have hcells : cellsOf radius m.resolution = some (radiusInCells radius m.resolution) := by
    unfold cellsOf
    rw [if_neg hres.ne']
    unfold radiusInCells at hn ⊢
    rw [if_pos (by omega)]
  obtain ⟨s, hs⟩ : ∃ s : Idx → Cost, ∀ i, i.In m.size → m.at ls i = .ok (s i) := by
    refine ⟨fun i => match m.at ls i with | .ok v => v | _ => 0, fun i hi => ?_⟩
    obtain ⟨v, hv⟩ := hc.at_ok hls hi
    simp only [hv]
  obtain ⟨st', h1, h2, h3, h4, h5, h6, h7, h8, h9, -, h11⟩ :=
    inflate_eq (ld := ld) hc hls hcells (by omega) hpop hh hq ho hs log
  exact ⟨st', s, h1, h2, h3, h4, h5, h6, h7, hs, h8, h9, h11.1⟩

/-- The run depends only on the costs in the map. -/
theorem Tags.run_congr {pop : Pop K} {hyp : Nat → Nat → K} {n : Nat} {size : Idx} {s s' : Idx → Cost}
    (h : ∀ i, i.In size → s i = s' i) : Tags.run pop hyp n size s = Tags.run pop hyp n size s' := by
  unfold Tags.run
  congr 1
  have : ∀ (xs : List Idx) (a : Tags K), (∀ i ∈ xs, i.In size) →
      Tags.seeds hyp n s xs a = Tags.seeds hyp n s' xs a := by
    intro xs
    induction xs with
    | nil => intro a _; rfl
    | cons x xs ih =>
      intro a hx
      unfold Tags.seeds at ih ⊢
      simp only [List.foldl_cons]
      rw [h x (hx x (by simp))]
      exact ih _ fun i hi => hx i (by simp [hi])
  exact this _ _ fun i hi => in_of_mem_cells hi

end Inflation
end CostMapModel

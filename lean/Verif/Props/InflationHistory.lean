import Verif.Spec.InflationHistory
import Verif.Props.Inflation

/-!
# C43: what a reused inflation object does after any history of calls
-/

set_option linter.unusedSectionVars false

namespace CostMapModel
open Inflation CostMap
variable {K : Type} [Field K] [LinearOrder K] [IsStrictOrderedRing K] [FloorRing K]
variable {hyp : Nat → Nat → K}

/-- The tables after a call: filled anew if the radius in cells changed, kept otherwise. -/
theorem inflate_tables {pop : Pop K} {computer computer₀ : K → Cost} {radius res : K} {m : CostMap K}
    {o : Inflater K} {ls ld : String} {log : List Idx} {st : Inflation K} (hres : 0 < m.resolution)
    (hr : inflate pop hyp ls ld radius computer ⟨o, m, log⟩ = (.ok (), st)) :
    (o.cellRadius ≠ radiusInCells radius m.resolution → Ready hyp computer m.resolution st.obj) ∧
    (o.cellRadius = radiusInCells radius m.resolution → Ready hyp computer₀ res o → Ready hyp computer₀ res st.obj) := by
  unfold inflate at hr
  obtain ⟨_, s1, e1, hr⟩ := Act.bind_eq_ok hr
  cases e1
  obtain ⟨src, s2, e2, hr⟩ := Act.bind_eq_ok hr
  obtain rfl : s2 = ⟨o, m, []⟩ := (congrArg Prod.snd e2).symm
  obtain ⟨_, s3, e3, hr⟩ := Act.bind_eq_ok hr
  obtain ⟨_, s4, e4, hr⟩ := Act.bind_eq_ok hr
  obtain ⟨_, s5, e5, hr⟩ := Act.bind_eq_ok hr
  obtain ⟨s5', s6, e6, hr⟩ := Act.bind_eq_ok hr
  cases e6
  have ho3 : s3.obj = o := by
    have e : _ = s3 := congrArg Prod.snd e3
    rw [← e]; rfl
  have hres3 : s3.map.resolution = m.resolution := by
    have e : _ = s3 := congrArg Prod.snd e3
    rw [← e]
    simp only [onMap, CostMap.add]
    split
    · rfl
    · split
      · rfl
      · split <;> rfl
  have h5 := Act.Keeps.forEach (P := Tables s4.obj.cellRadius s4.obj.distances s4.obj.costs)
    (fun i => seed_tables ls ld i) (colMajor src.rows src.cols) s4 ⟨rfl, rfl, rfl⟩
  rw [e5] at h5
  have h6 := spread_tables (r := s4.obj.cellRadius) (d := s4.obj.distances) (c := s4.obj.costs) pop ls ld
    (s5.map.size.x.toNat * s5.map.size.y.toNat) s5 h5
  rw [hr] at h6
  obtain ⟨t1, t2, t3⟩ := h6
  simp only at t1 t2 t3
  have hq := spread_queue hr
  unfold prepare at e4
  simp only at e4
  split at e4
  · cases e4
  · rename_i n hcells
    have hn : n = radiusInCells radius m.resolution := by
      rw [hres3] at hcells
      unfold cellsOf at hcells
      rw [if_neg hres.ne'] at hcells
      split at hcells
      · exact (Option.some.inj hcells).symm
      · cases hcells
    rw [ho3] at e4
    split at e4
    · rename_i hne
      cases e4
      refine ⟨fun _ => ⟨hq, .inr ?_⟩, fun h => absurd (hn.trans h.symm) hne⟩
      rw [t1, t2, t3]
      refine ⟨rfl, ?_⟩
      simp only [computeCaches, hres3]
    · rename_i he
      cases e4
      refine ⟨fun h => absurd ((not_not.mp he).symm.trans hn) h, fun _ ih => ⟨hq, ?_⟩⟩
      rw [t1, t2, t3]
      exact ih.2

theorem After.queue {cs : List (Setting K)} {o : Inflater K} (h : After hyp cs o) : o.queue = [] := by
  have hu : UsedAny hyp o := by
    induction h with
    | new => exact .new
    | call h pop ls ld radius computer m log _ _ hr ih => exact ih.call pop ls ld radius computer m log hr
  exact UsedAny.queue hu

/-- After calls, the object holds the tables of the setting in force. -/
theorem After.ready {cs : List (Setting K)} {o : Inflater K} (h : After hyp cs o) :
    ∀ c ds, cs = c :: ds → 0 < c.resolution ∧ c.cells < 2 ^ 32 - 1 ∧ o.cellRadius = c.cells ∧ (inForce c ds).cells = c.cells ∧
      Ready hyp (inForce c ds).computer (inForce c ds).resolution o := by
  induction h with
  | new => intro c ds h; cases h
  | @call cs o h pop ls ld radius computer m log hres hn st hr ih =>
    intro c ds he
    obtain ⟨rfl, rfl⟩ := List.cons.inj he
    refine ⟨hres, hn, inflate_cellRadius hres hr, ?_⟩
    cases cs with
    | nil =>
      cases h
      refine ⟨rfl, (inflate_tables (computer₀ := computer) (res := 0) hres hr).1 ?_⟩
      show 2 ^ 32 - 1 ≠ _
      omega
    | cons d ds =>
      obtain ⟨-, -, h2, h3, h4⟩ := ih d ds rfl
      unfold inForce
      split
      · rename_i heq
        refine ⟨h3.trans heq.symm, (inflate_tables hres hr).2 (h2.trans heq.symm) h4⟩
      · rename_i hne
        refine ⟨rfl, (inflate_tables (computer₀ := computer) (res := 0) hres hr).1 ?_⟩
        rw [h2]; exact fun he => hne he.symm

/-- What a call does after any history, in terms of the run on tags. -/
theorem After.run {cs : List (Setting K)} {o : Inflater K} (h : After hyp cs o) {pop : Pop K} {computer : K → Cost} {radius : K}
    {m : CostMap K} (hc : m.Coherent) (hres : 0 < m.resolution) {ls : String} (hls : m.exists ls = true) (ld : String)
    (hn : radiusInCells radius m.resolution < 2 ^ 32 - 1) (hpop : PopOk pop)
    (hh : HypOk hyp (radiusInCells radius m.resolution)) (log : List Idx) (d : Setting K)
    (hd : d = inForce ⟨radius, computer, m.resolution⟩ cs) :
    ∃ st' s, inflate pop hyp ls ld radius computer ⟨o, m, log⟩ = (.ok (), st') ∧
      CostMap.SameGeometry m st'.map ∧ CostMap.SameMeta m st'.map ∧
      st'.map.layers = (if m.exists ld then m.layers else m.layers ++ [ld]) ∧
      (∀ l, l ≠ ld → st'.map.data l = m.data l) ∧ st'.map.exists ld = true ∧ st'.map.Coherent ∧
      (∀ i, i.In m.size → m.at ls i = .ok (s i)) ∧
      (∀ i, i.In m.size → st'.map.at ld i = .ok ((Tags.run pop hyp (radiusInCells radius m.resolution) m.size s).out
        (inflationCost hyp d.computer d.resolution) s i)) ∧
      st'.pushed = (Tags.run pop hyp (radiusInCells radius m.resolution) m.size s).pushed ∧
      st'.obj.queue = [] := by
  by_cases hrad : o.cellRadius = radiusInCells radius m.resolution
  · -- the tables are kept
    cases cs with
    | nil =>
      cases h
      rw [← hrad] at hn
      exact absurd hn (by show ¬ (2 ^ 32 - 1 < 2 ^ 32 - 1); omega)
    | cons e es =>
      obtain ⟨h1, h1', h2, h3, h4⟩ := h.ready e es rfl
      have hin : d = inForce e es := by
        rw [hd]
        show (if _ then _ else _) = _
        rw [if_pos (show Setting.cells ⟨radius, computer, m.resolution⟩ = e.cells from hrad.symm.trans h2)]
      have hready : Ready hyp (fun x => d.computer (d.resolution / m.resolution * x)) m.resolution o := by
        refine ⟨h.queue, .inr ?_⟩
        rcases h4.2 with hr | hr
        · rw [h2] at hr; omega
        · refine ⟨hr.1, hr.2.trans ?_⟩
          congr 1
          funext i j
          dsimp only
          rw [← mul_assoc, div_mul_cancel₀ _ hres.ne', hin]
      rw [inflate_computer hres hrad ls ld computer (fun x => d.computer (d.resolution / m.resolution * x)) log]
      obtain ⟨st', s, r1, r2, r3, r4, r5, r6, r7, hs, r8, r9, r10⟩ := inflate_run hc hres hls ld hn hpop hh h.queue (.inr hready) log
      refine ⟨st', s, r1, r2, r3, r4, r5, r6, r7, hs, fun i hi => ?_, r9, r10⟩
      rw [r8 i hi]
      congr 2
      funext a b
      unfold inflationCost
      dsimp only
      rw [← mul_assoc, div_mul_cancel₀ _ hres.ne']
  · have hin : d = ⟨radius, computer, m.resolution⟩ := by
      rw [hd]
      cases cs with
      | nil => rfl
      | cons e es =>
        obtain ⟨-, -, h2, -, -⟩ := h.ready e es rfl
        show (if _ then _ else _) = _
        rw [if_neg]
        intro he
        exact hrad (h2.trans he.symm)
    rw [hin]
    exact inflate_run hc hres hls ld hn hpop hh h.queue (.inl hrad) log

/-- C43. After any calls, on any maps, with any radii and computers, a call writes for every cell what a new object would
write, except that the costs come from the setting in force: its computer, at the distance in cells times its resolution. -/
theorem C43_history {cs : List (Setting K)} {o : Inflater K} (h : After hyp cs o) {pop : Pop K} {computer : K → Cost} {radius : K}
    {m : CostMap K} (hc : m.Coherent) (hres : 0 < m.resolution) {ls : String} (hls : m.exists ls = true) (ld : String)
    (hn : radiusInCells radius m.resolution < 2 ^ 32 - 1) (hpop : PopOk pop)
    (hh : HypOk hyp (radiusInCells radius m.resolution)) (log : List Idx) (d : Setting K)
    (hd : d = inForce ⟨radius, computer, m.resolution⟩ cs) :
    ∃ st' st'', inflate pop hyp ls ld radius computer ⟨o, m, log⟩ = (.ok (), st') ∧
      inflate pop hyp ls ld radius (fun x => d.computer (d.resolution * (x / m.resolution))) ⟨Inflater.new, m, []⟩ = (.ok (), st'') ∧
      SameGeometry st''.map st'.map ∧ SameMeta st''.map st'.map ∧ st'.map.layers = st''.map.layers ∧
      (∀ l, l ≠ ld → st'.map.get l = st''.map.get l) ∧
      (∀ i, i.In m.size → st'.map.at ld i = st''.map.at ld i) ∧ st'.pushed = st''.pushed := by
  obtain ⟨st', s, h1, h2, h3, h4, h5, h6, h7, hs, h8, h9, h10⟩ := h.run hc hres hls ld hn hpop hh log d hd
  obtain ⟨st'', s', g1, g2, g3, g4, g5, g6, g7, gs, g8, g9, g10⟩ := inflate_run (o := Inflater.new) (computer := fun x => d.computer (d.resolution * (x / m.resolution)))
    hc hres hls ld hn hpop hh rfl (.inr (Ready.new hyp _ m.resolution)) []
  have hss : ∀ i, i.In m.size → s i = s' i := by
    intro i hi
    have := (hs i hi).symm.trans (gs i hi)
    injection this
  have hrun : Tags.run pop hyp (radiusInCells radius m.resolution) m.size s =
      Tags.run pop hyp (radiusInCells radius m.resolution) m.size s' := Tags.run_congr hss
  refine ⟨st', st'', h1, g1, ?_, ?_, by rw [h4, g4], ?_, ?_, by rw [h9, g9, hrun]⟩
  · exact ⟨h2.length.trans g2.length.symm, h2.resolution.trans g2.resolution.symm, h2.position.trans g2.position.symm,
      h2.size.trans g2.size.symm, h2.startIndex.trans g2.startIndex.symm⟩
  · exact ⟨h3.frameId.trans g3.frameId.symm, h3.timestamp.trans g3.timestamp.symm,
      h3.basicLayers.trans g3.basicLayers.symm⟩
  · intro l hl; exact get_congr ((h5 l hl).trans (g5 l hl).symm)
  · intro i hi
    have hcost : inflationCost hyp (fun x => d.computer (d.resolution * (x / m.resolution))) m.resolution =
        inflationCost hyp d.computer d.resolution := by
      funext a b
      unfold inflationCost
      dsimp only
      rw [mul_div_cancel_left₀ _ hres.ne']
    rw [h8 i hi, g8 i hi, hrun, hcost]
    unfold Tags.out
    rw [hss i hi]

/-! ## Exactly when reuse is harmless -/

/-- A square map of `n + 1` by `n + 1` free cells with an obstacle in the corner. -/
def cornerMap (ls : String) (n : Nat) (r : K) : CostMap K where
  frameId := ""
  timestamp := 0
  data := fun l => if l = ls then some (Mat.ofFn (n + 1) (n + 1) fun i j => if i = 0 ∧ j = 0 then LETHAL_OBSTACLE else FREE_SPACE) else none
  layers := [ls]
  basicLayers := []
  length := ⟨((n + 1 : Int) : K) * r, ((n + 1 : Int) : K) * r⟩
  resolution := r
  position := ⟨0, 0⟩
  size := ⟨n + 1, n + 1⟩
  startIndex := 0

theorem cornerMap_geo (ls : String) (n : Nat) {r : K} (hr : 0 < r) : (cornerMap ls n r).Geo :=
  ⟨hr, by show (0 : Int) < n + 1; omega, by show (0 : Int) < n + 1; omega, rfl, rfl,
    ⟨le_rfl, by show (0 : Int) < n + 1; omega, le_rfl, by show (0 : Int) < n + 1; omega⟩⟩

theorem cornerMap_coherent (ls : String) (n : Nat) (r : K) : (cornerMap ls n r).Coherent where
  nodup := by simp [cornerMap]
  mem_iff l := by
    by_cases h : l = ls <;> simp [cornerMap, h]
  dims l a h := by
    simp only [cornerMap] at h
    split at h
    · cases h
      exact ⟨by simp [cornerMap], by simp [cornerMap]⟩
    · cases h

theorem cornerMap_at (ls : String) (n : Nat) (r : K) {i : Idx} (hi : i.In (cornerMap ls n r).size) :
    (cornerMap ls n r).at ls i = .ok (if i = 0 then LETHAL_OBSTACLE else FREE_SPACE) := by
  obtain ⟨h1, h2, h3, h4⟩ := hi
  have e : (cornerMap ls n r).data ls = some (Mat.ofFn (n + 1) (n + 1) fun i j => if i = 0 ∧ j = 0 then LETHAL_OBSTACLE else FREE_SPACE) := by
    simp [cornerMap]
  have h2 : i.x < n + 1 := h2
  have h4 : i.y < n + 1 := h4
  rw [at_eq e, Mat.get?_ofFn, if_pos ⟨h1, by push_cast; omega, h3, by push_cast; omega⟩]
  show Res.ok _ = _
  congr 1
  refine if_congr ⟨fun h => Idx.ext h.1 h.2, fun h => by rw [h]; exact ⟨rfl, rfl⟩⟩ rfl rfl

theorem combined_free (c : Cost) : combined FREE_SPACE c = c := by
  unfold combined
  rw [if_neg (by decide)]
  split
  · rename_i h
    have : c.toNat = 0 := by
      rw [UInt8.le_iff_toNat_le] at h
      have : (FREE_SPACE : Cost).toNat = 0 := rfl
      omega
    exact UInt8.toNat_inj.mp (by rw [this]; rfl)
  · rfl

theorem combined_lethal_iff (c d : Cost) : combined LETHAL_OBSTACLE c = combined LETHAL_OBSTACLE d ↔ (c = NO_INFORMATION ↔ d = NO_INFORMATION) := by
  have h : ∀ c : Cost, combined LETHAL_OBSTACLE c = if c = NO_INFORMATION then NO_INFORMATION else LETHAL_OBSTACLE := by
    intro c
    unfold combined
    rw [if_neg (by decide)]
    by_cases hc : c = NO_INFORMATION
    · subst hc; decide
    · rw [if_neg hc, if_pos]
      rw [UInt8.le_iff_toNat_le]
      have h1 := c.toNat_lt
      have h2 : c.toNat ≠ 255 := fun he => hc (UInt8.toNat_inj.mp (by rw [he]; rfl))
      show c.toNat ≤ 254
      omega
  rw [h, h]
  by_cases hc : c = NO_INFORMATION <;> by_cases hd : d = NO_INFORMATION <;> simp [hc, hd] <;> decide

/-- C43. After any calls, reusing an object gives what a new object gives, for every map of that resolution, exactly when the
setting in force gives the same costs as the setting of the call, for the distances within the radius. -/
theorem C43_reuse_iff {cs : List (Setting K)} {o : Inflater K} (h : After hyp cs o) {pop : Pop K} (hpop : PopOk pop)
    (c : Setting K) (hres : 0 < c.resolution) (hn : c.cells < 2 ^ 32 - 1) (hh : HypOk hyp c.cells) (ls ld : String) :
    (∀ m : CostMap K, m.Geo → m.Coherent → m.resolution = c.resolution → m.exists ls = true →
      ∃ st' st'', inflate pop hyp ls ld c.radius c.computer ⟨o, m, []⟩ = (.ok (), st') ∧
        inflate pop hyp ls ld c.radius c.computer ⟨Inflater.new, m, []⟩ = (.ok (), st'') ∧
        ∀ i, i.In m.size → st'.map.at ld i = st''.map.at ld i) ↔
    SameCosts hyp c.cells (inForce c cs) c := by
  constructor
  · intro hall
    have hg := cornerMap_geo ls c.cells hres
    have hc := cornerMap_coherent ls c.cells c.resolution
    have hls : (cornerMap ls c.cells c.resolution).exists ls = true := by simp [CostMap.exists, cornerMap]
    obtain ⟨st', st'', e1, e2, hat⟩ := hall _ hg hc rfl hls
    obtain ⟨st1, st2, g1, g2, -, -, -, -, gat, -⟩ := C43_history h (computer := c.computer) (radius := c.radius) hc hres hls ld hn hpop hh []
      (inForce c cs) rfl
    obtain rfl : st' = st1 := congrArg Prod.snd (e1.symm.trans g1)
    obtain ⟨st3, f1, f2⟩ := C42_isolated_obstacle_partial (radius := c.radius) hc hres hls ld hn hpop hh
      (Used.new (hyp := hyp) (computer := c.computer) (resolution := c.resolution)) []
    obtain rfl : st'' = st3 := congrArg Prod.snd (e2.symm.trans f1)
    obtain ⟨st4, k1, k2⟩ := C42_isolated_obstacle_partial (radius := c.radius)
      (computer := fun x => (inForce c cs).computer ((inForce c cs).resolution * (x / c.resolution))) hc hres hls ld hn hpop hh
      (Used.new (hyp := hyp) (resolution := c.resolution)) []
    obtain rfl : st2 = st4 := congrArg Prod.snd (g2.symm.trans k1)
    have hL : (cornerMap ls c.cells c.resolution).Lethal ls 0 := by
      refine ⟨hg.start, ?_⟩
      rw [cornerMap_at ls c.cells c.resolution (i := 0) hg.start, if_pos rfl]
    have hiso : ∀ i q : Idx, i.In (cornerMap ls c.cells c.resolution).size → (cornerMap ls c.cells c.resolution).Lethal ls q → q ≠ 0 →
        sqDist i 0 ≤ c.cells * c.cells → c.cells * c.cells < sqDist i q := by
      rintro i q - ⟨hq, hqat⟩ hne -
      rw [cornerMap_at ls c.cells c.resolution hq, if_neg hne] at hqat
      exact absurd (Res.ok.inj hqat) (by decide)
    -- what both calls write `a`, `b` cells from the obstacle
    have key : ∀ a b : Nat, a * a + b * b ≤ c.cells * c.cells →
        combined (if a = 0 ∧ b = 0 then LETHAL_OBSTACLE else FREE_SPACE) ((inForce c cs).computer ((inForce c cs).resolution * hyp a b)) =
        combined (if a = 0 ∧ b = 0 then LETHAL_OBSTACLE else FREE_SPACE) (c.computer (c.resolution * hyp a b)) := by
      intro a b hab
      have ha : a ≤ c.cells := by
        by_contra hn
        have := Nat.mul_self_lt_mul_self (not_le.mp hn)
        omega
      have hb : b ≤ c.cells := by
        by_contra hn
        have := Nat.mul_self_lt_mul_self (not_le.mp hn)
        omega
      have hi : (⟨a, b⟩ : Idx).In (cornerMap ls c.cells c.resolution).size :=
        ⟨by show (0 : Int) ≤ a; omega, by show (a : Int) < c.cells + 1; omega, by show (0 : Int) ≤ b; omega,
          by show (b : Int) < c.cells + 1; omega⟩
      have hv := cornerMap_at ls c.cells c.resolution hi
      have hd : sqDist ⟨a, b⟩ 0 ≤ c.cells * c.cells := by
        unfold sqDist
        simp only [Idx.zero_x, Idx.zero_y, sub_zero, Int.natAbs_natCast]
        exact hab
      have r1 := (f2 0 hL hiso _ _ hi hv hd).2
      have r2 := (k2 0 hL hiso _ _ hi hv hd).2
      have := (hat _ hi).symm.trans (gat _ hi)
      rw [r1, r2] at this
      have hif : (if (⟨a, b⟩ : Idx) = 0 then LETHAL_OBSTACLE else FREE_SPACE) = if a = 0 ∧ b = 0 then LETHAL_OBSTACLE else FREE_SPACE := by
        refine if_congr ⟨fun he => ?_, fun he => ?_⟩ rfl rfl
        · have h1 : (a : Int) = 0 := congrArg Idx.x he
          have h2 : (b : Int) = 0 := congrArg Idx.y he
          omega
        · obtain ⟨rfl, rfl⟩ := he; rfl
      rw [hif] at this
      have := Res.ok.inj this
      unfold inflationCost at this
      simp only [Idx.zero_x, Idx.zero_y, sub_zero, Int.natAbs_natCast] at this
      rw [show (cornerMap ls c.cells c.resolution).resolution = c.resolution from rfl, mul_div_cancel_left₀ _ hres.ne'] at this
      exact this.symm
    constructor
    · intro a b hpos hab
      have := key a b hab
      rw [if_neg (by omega), combined_free, combined_free] at this
      exact this
    · have := key 0 0 (by omega)
      rw [if_pos ⟨rfl, rfl⟩] at this
      exact (combined_lethal_iff _ _).mp this
  · intro hsame m hg hc hmr hls
    obtain ⟨cr, cc, cres⟩ := c
    simp only at hres hmr
    subst hmr
    obtain ⟨st', s, h1, -, -, -, -, -, -, hs, h8, -, -⟩ := h.run (computer := cc) (radius := cr) hc hres hls ld hn hpop hh [] _ rfl
    obtain ⟨st'', s', g1, -, -, -, -, -, -, gs, g8, -, -⟩ := inflate_run (o := Inflater.new) (computer := cc) (radius := cr)
      hc hres hls ld hn hpop hh rfl (.inr (Ready.new hyp _ m.resolution)) []
    have hss : ∀ i, i.In m.size → s i = s' i := by
      intro i hi
      have := (hs i hi).symm.trans (gs i hi)
      injection this
    have hrun := Tags.run_congr (pop := pop) (hyp := hyp) (n := radiusInCells cr m.resolution) hss
    refine ⟨st', st'', h1, g1, fun i hi => ?_⟩
    rw [h8 i hi, g8 i hi, ← hrun]
    obtain ⟨hl, -⟩ := Loop.run (size := m.size) (s := s) (pop := pop) hh hpop
    unfold Tags.out
    change Res.ok (match (Tags.run pop hyp (Setting.cells ⟨cr, cc, m.resolution⟩) m.size s).tag i with | none => _ | some o => _) =
      Res.ok (match (Tags.run pop hyp (Setting.cells ⟨cr, cc, m.resolution⟩) m.size s).tag i with | none => _ | some o => _)
    cases ht : (Tags.run pop hyp (Setting.cells ⟨cr, cc, m.resolution⟩) m.size s).tag i with
    | none => simp only [hss i hi]
    | some q =>
      obtain ⟨-, hq, hsq, hd⟩ := hl.inv.t i q ht
      simp only [superimpose_eq_combined, ← hss i hi]
      congr 1
      unfold inflationCost
      by_cases hz : i = q
      · subst hz
        simp only [sub_self, Int.natAbs_zero, hsq]
        exact (combined_lethal_iff _ _).mpr hsame.2
      · rw [hsame.1 (i.x - q.x).natAbs (i.y - q.y).natAbs ?_ hd]
        by_contra hn
        exact hz (Idx.ext (by omega) (by omega))

-- the hypotheses hold: two calls with different computers, the second with the costs of the first
example : ∃ o, After Demo.hyp [⟨1, fun _ => 200, Demo.spot.resolution⟩] o ∧
    inForce (⟨1, fun _ => 100, Demo.spot.resolution⟩ : Setting ℚ) [⟨1, fun _ => 200, Demo.spot.resolution⟩] =
      ⟨1, fun _ => 200, Demo.spot.resolution⟩ ∧
    ¬ SameCosts Demo.hyp 1 (⟨1, fun _ => 200, Demo.spot.resolution⟩ : Setting ℚ) ⟨1, fun _ => 100, Demo.spot.resolution⟩ := by
  refine ⟨_, After.call After.new Demo.pop "s" "t" 1 (fun _ => 200) Demo.spot [] Demo.spot_res (by decide +kernel)
    (st := (inflate Demo.pop Demo.hyp "s" "t" 1 (fun _ => 200) ⟨Inflater.new, Demo.spot, []⟩).2) (Prod.ext (by decide +kernel) rfl), ?_, ?_⟩
  · exact if_pos rfl
  · intro hs
    exact absurd (hs.1 1 0 (by omega) (by omega)) (by decide)

end CostMapModel

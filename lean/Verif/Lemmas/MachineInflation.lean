import Verif.Model.MachineInflation
import Verif.Lemmas.Machine
import Verif.Lemmas.InflationUse
import Verif.Lemmas.MachineMerge

/-! # Inflation with the machine's integers -/

set_option linter.unusedSectionVars false

namespace CostMapModel
variable {K : Type} [Field K] [LinearOrder K] [IsStrictOrderedRing K] [FloorRing K]

theorem u32_eq {z : Int} (h0 : 0 ≤ z) (h1 : z < 4294967296) : u32 z = z := Int.emod_eq_of_lt h0 h1

theorem u32ToI32_eq {z : Int} (h0 : 0 ≤ z) (h1 : z < 2147483648) : u32ToI32 z = z := by
  unfold u32ToI32
  rw [u32_eq h0 (by omega), if_pos h1]

/-- Coordinates that are not negative as an `int`. -/
structure Idx.Cell32 (i : Idx) : Prop where
  x0 : 0 ≤ i.x
  x1 : i.x < 2147483648
  y0 : 0 ≤ i.y
  y1 : i.y < 2147483648

namespace Inflation

theorem offsetU_eq {a b : Int} (ha : 0 ≤ a) (ha' : a < 2147483648) (hb : 0 ≤ b) (hb' : b < 2147483648) :
    offsetU a b = some ((a - b).natAbs : Int) := by
  unfold offsetU
  rw [u32ToI32_eq ha ha', u32ToI32_eq hb hb']
  rw [show I32.sub a b = some (a - b) from i32_eq (by omega) (by omega), Option.bind_some,
    show I32.abs (a - b) = some |a - b| from i32_eq (by rw [Int.abs_eq_natAbs]; omega) (by rw [Int.abs_eq_natAbs]; omega),
    Option.bind_some, Int.abs_eq_natAbs, u32_eq (by omega) (by omega)]

theorem distanceLookupU_eq {c src : Idx} (hc : c.Cell32) (hs : src.Cell32) (o : Inflater K) :
    distanceLookupU c src o = distanceLookup c src o := by
  unfold distanceLookupU distanceLookup
  rw [offsetU_eq hc.x0 hc.x1 hs.x0 hs.x1, offsetU_eq hc.y0 hc.y1 hs.y0 hs.y1]
  rfl

theorem costLookupU_eq {c src : Idx} (hc : c.Cell32) (hs : src.Cell32) (o : Inflater K) :
    costLookupU c src o = costLookup c src o := by
  unfold costLookupU costLookup
  rw [offsetU_eq hc.x0 hc.x1 hs.x0 hs.x1, offsetU_eq hc.y0 hc.y1 hs.y0 hs.y1]
  rfl

theorem enqueueU_eq (ls ld : String) {c src : Idx} (hc : c.Cell32) (hs : src.Cell32) :
    (enqueueU ls ld c src : Act (Inflation K) Unit) = enqueue ls ld c src := by
  unfold enqueueU enqueue
  simp only [distanceLookupU_eq hc hs, costLookupU_eq hc hs]

theorem seedU_eq (ls ld : String) {c : Idx} (hc : c.Cell32) : (seedU ls ld c : Act (Inflation K) Unit) = seed ls ld c := by
  unfold seedU seed
  rw [enqueueU_eq ls ld hc hc]

theorem visitU_eq (ls ld : String) {c src : Idx} (hc : c.Cell32) (hs : src.Cell32) {s : Inflation K}
    (hx : c.x < s.map.size.x) (hy : c.y < s.map.size.y) (hX : s.map.size.x < 2147483648) (hY : s.map.size.y < 2147483648) :
    visitU ls ld c src s = visit ls ld c src s := by
  obtain ⟨x0, x1, y0, y1⟩ := hc
  have e1 : u32 (u32 s.map.size.x - 1) = s.map.size.x - 1 := by
    rw [u32_eq (z := s.map.size.x) (by omega) (by omega), u32_eq (by omega) (by omega)]
  have e2 : u32 (u32 s.map.size.y - 1) = s.map.size.y - 1 := by
    rw [u32_eq (z := s.map.size.y) (by omega) (by omega), u32_eq (by omega) (by omega)]
  have f1 : (if 0 < c.x then enqueueU ls ld ⟨u32 (c.x - 1), c.y⟩ src else Act.pure () : Act (Inflation K) Unit) =
      if 0 < c.x then enqueue ls ld ⟨c.x - 1, c.y⟩ src else Act.pure () := by
    split
    · rw [u32_eq (by omega) (by omega), enqueueU_eq (c := ⟨c.x - 1, c.y⟩) ls ld ⟨show 0 ≤ c.x - 1 by omega, show c.x - 1 < _ by omega, y0, y1⟩ hs]
    · rfl
  have f2 : (if 0 < c.y then enqueueU ls ld ⟨c.x, u32 (c.y - 1)⟩ src else Act.pure () : Act (Inflation K) Unit) =
      if 0 < c.y then enqueue ls ld ⟨c.x, c.y - 1⟩ src else Act.pure () := by
    split
    · rw [u32_eq (by omega) (by omega), enqueueU_eq (c := ⟨c.x, c.y - 1⟩) ls ld ⟨x0, x1, show 0 ≤ c.y - 1 by omega, show c.y - 1 < _ by omega⟩ hs]
    · rfl
  have f3 : (if c.x < s.map.size.x - 1 then enqueueU ls ld ⟨u32 (c.x + 1), c.y⟩ src else Act.pure () : Act (Inflation K) Unit) =
      if c.x < s.map.size.x - 1 then enqueue ls ld ⟨c.x + 1, c.y⟩ src else Act.pure () := by
    split
    · rw [u32_eq (by omega) (by omega), enqueueU_eq (c := ⟨c.x + 1, c.y⟩) ls ld ⟨show 0 ≤ c.x + 1 by omega, show c.x + 1 < _ by omega, y0, y1⟩ hs]
    · rfl
  have f4 : (if c.y < s.map.size.y - 1 then enqueueU ls ld ⟨c.x, u32 (c.y + 1)⟩ src else Act.pure () : Act (Inflation K) Unit) =
      if c.y < s.map.size.y - 1 then enqueue ls ld ⟨c.x, c.y + 1⟩ src else Act.pure () := by
    split
    · rw [u32_eq (by omega) (by omega), enqueueU_eq (c := ⟨c.x, c.y + 1⟩) ls ld ⟨x0, x1, show 0 ≤ c.y + 1 by omega, show c.y + 1 < _ by omega⟩ hs]
    · rfl
  unfold visitU visit
  refine Act.bind_congr rfl fun s' s'' h => ?_
  obtain ⟨rfl, rfl⟩ : s = s' ∧ s = s'' := by
    have := Prod.mk.inj h
    exact ⟨Res.ok.inj this.1, this.2⟩
  rw [e1, e2, f1, f2, f3, f4]

/-- What the queue holds during a call on a map of the given size. -/
structure Queue32 (z : Idx) (s : Inflation K) : Prop where
  size : s.map.size = z
  cell : ∀ c ∈ s.obj.queue, c.cell.In z
  src : ∀ c ∈ s.obj.queue, c.src.In z

variable {size : Idx}

theorem enqueue_queue32 (ls ld : String) {c src : Idx} (hc : c.In size) (hs : src.In size) :
    Act.Keeps (Queue32 (K := K) size) (enqueue ls ld c src) := by
  refine (Act.Keeps.read _).bind fun seen => ?_
  split
  · exact Act.Keeps.pure ()
  · refine (Act.Keeps.read _).bind fun dist => Act.Keeps.get.bind fun s => ?_
    split
    · exact Act.Keeps.pure ()
    · refine (Act.Keeps.read _).bind fun cost => (Act.Keeps.read _).bind fun old => Act.Keeps.bind ?_ fun _ => ?_
      · intro s h
        exact ⟨(CostMap.setAt_shape ld c _ s.map).geo.size.trans h.size, h.cell, h.src⟩
      · intro s h
        refine ⟨h.size, fun d hd => ?_, fun d hd => ?_⟩
        · rcases List.mem_cons.mp hd with rfl | hd
          · exact hc
          · exact h.cell d hd
        · rcases List.mem_cons.mp hd with rfl | hd
          · exact hs
          · exact h.src d hd

theorem forEach_keeps_mem {σ α : Type} {P : σ → Prop} {f : α → Act σ Unit} : ∀ {xs : List α}, (∀ a ∈ xs, Act.Keeps P (f a)) →
    Act.Keeps P (Act.forEach f xs)
  | [], _ => Act.Keeps.pure ()
  | a :: xs, h => (h a (by simp)).bind fun _ => forEach_keeps_mem fun b hb => h b (by simp [hb])

theorem forEach_congr_mem {σ α : Type} {P : σ → Prop} {f g : α → Act σ Unit} : ∀ {xs : List α}, (∀ a ∈ xs, Act.Keeps P (g a)) →
    (∀ a ∈ xs, ∀ s, P s → f a s = g a s) → ∀ {s : σ}, P s → Act.forEach f xs s = Act.forEach g xs s
  | [], _, _, _, _ => rfl
  | a :: xs, hk, h, s, hs => by
    have e := h a (by simp) s hs
    refine Act.bind_congr e fun u s' hs' => ?_
    have := hk a (by simp) s hs
    rw [← e, hs'] at this
    exact forEach_congr_mem (fun b hb => hk b (by simp [hb])) (fun b hb => h b (by simp [hb])) this

theorem visit_queue32 (ls ld : String) {c src : Idx} (hc : c.In size) (hs : src.In size) :
    Act.Keeps (Queue32 (K := K) size) (visit ls ld c src) := by
  intro s h
  rw [visit_eq]
  refine forEach_keeps_mem (fun e he => enqueue_queue32 ls ld ?_ hs) s h
  rw [h.size] at he
  exact ((mem_nbrs hc).mp he).2

theorem In.cell32 {c : Idx} (hc : c.In size) (hX : size.x < 2147483648) (hY : size.y < 2147483648) : c.Cell32 := by
  obtain ⟨c1, c2, c3, c4⟩ := hc
  exact ⟨c1, by omega, c3, by omega⟩

theorem spreadU_eq {pop : Pop K} (hpop : PopOk pop) (ls ld : String) (hX : size.x < 2147483648) (hY : size.y < 2147483648) :
    ∀ (n : Nat) {s : Inflation K}, Queue32 size s → spreadU pop ls ld n s = spread pop ls ld n s
  | 0, _, _ => rfl
  | n + 1, s, h => by
    unfold spreadU spread
    split
    · rfl
    · rename_i hq
      obtain ⟨c, rest, e, hp, -⟩ := hpop n s.obj.queue (by simpa using hq)
      rw [e]
      dsimp only
      have hc := h.cell c (hp.subset (by simp))
      have hs := h.src c (hp.subset (by simp))
      have h' : Queue32 size ({ s with obj := { s.obj with queue := rest } } : Inflation K) :=
        ⟨h.size, fun d hd => h.cell d (hp.subset (by simp [show d ∈ rest from hd])),
          fun d hd => h.src d (hp.subset (by simp [show d ∈ rest from hd]))⟩
      have ev := visitU_eq ls ld (In.cell32 hc hX hY) (In.cell32 hs hX hY)
        (s := ({ s with obj := { s.obj with queue := rest } } : Inflation K))
        (by rw [h'.size]; exact hc.2.1) (by rw [h'.size]; exact hc.2.2.2) (by rw [h'.size]; exact hX) (by rw [h'.size]; exact hY)
      refine Act.bind_congr ev fun u s' hs' => ?_
      have := visit_queue32 ls ld hc hs _ h'
      rw [← ev, hs'] at this
      exact spreadU_eq hpop ls ld hX hY n this

end Inflation
end CostMapModel

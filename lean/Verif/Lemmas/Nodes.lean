import Verif.Model.Nodes
import Verif.Props.Costmap2D
import Verif.Props.Bundle

/-!
# Lemmas on nodes
-/

set_option linter.unusedSectionVars false

namespace CostMapModel
open CostMap
variable {K : Type} [Field K] [LinearOrder K] [IsStrictOrderedRing K] [FloorRing K]

theorem splitSlash_none : ∀ {cs : List Char}, '/' ∉ cs → splitSlash cs = none
  | [], _ => rfl
  | c :: cs, h => by
    simp only [List.mem_cons, not_or] at h
    unfold splitSlash
    split
    · rfl
    · rename_i e; cases e; exact absurd rfl h.1
    · rename_i e; cases e; rw [splitSlash_none h.2]; rfl

theorem splitSlash_some : ∀ {p n : List Char}, '/' ∉ p → splitSlash (p ++ '/' :: n) = some (p, n)
  | [], n, _ => rfl
  | c :: p, n, h => by
    simp only [List.mem_cons, not_or] at h
    rw [List.cons_append]
    unfold splitSlash
    split
    · rename_i e; cases e
    · rename_i e; cases e; exact absurd rfl h.1
    · rename_i e; cases e; rw [splitSlash_some h.2]; rfl

theorem containsStr_iff {h n : List Char} : containsStr h n = true ↔ ∃ a b, h = a ++ n ++ b := by
  unfold containsStr
  rw [List.any_eq_true]
  constructor
  · rintro ⟨t, ht, hp⟩
    rw [List.isPrefixOf_iff_prefix] at hp
    obtain ⟨b, rfl⟩ := hp
    obtain ⟨a, ha⟩ := (List.mem_tails _ _).1 ht
    exact ⟨a, b, by rw [← ha, List.append_assoc]⟩
  · rintro ⟨a, b, rfl⟩
    exact ⟨n ++ b, (List.mem_tails _ _).2 ⟨a, by rw [List.append_assoc]⟩,
      List.isPrefixOf_iff_prefix.2 (List.prefix_append _ _)⟩

/-- Maps that survive being sent. -/
structure Sendable (m : CostMap K) : Prop where
  geo : m.Geo
  coherent : m.Coherent
  time : m.timestamp < 2 ^ 32 * 10 ^ 9
  size_x : m.size.x < 2 ^ 31
  size_y : m.size.y < 2 ^ 31
  start_x : m.startIndex.x < 2 ^ 16
  start_y : m.startIndex.y < 2 ^ 16

theorem Sendable.send {m : CostMap K} (h : Sendable m) : ∃ msg, m.toMessage = .ok msg ∧ msg.layers = m.layers ∧
    ∀ e : CostMap K, NoLayers e → fromMessage msg e = (.ok true, m) := by
  obtain ⟨msg, h1, h2⟩ := C48_message_round_trip_partial h.geo h.coherent h.time h.size_x h.size_y h.start_x h.start_y
  refine ⟨msg, h1, ?_, h2⟩
  unfold toMessage at h1
  cases e1 : stampOf m.timestamp with
  | ok t =>
    rw [e1, Res.bind_ok] at h1
    cases e2 : m.layerArrays m.layers with
    | ok d => rw [e2, Res.bind_ok] at h1; cases h1; rfl
    | _ => rw [e2] at h1; cases h1
  | _ => rw [e1] at h1; cases h1

theorem Sendable.grid {m : CostMap K} (h : Sendable m) (rf : K → K) {l : String} (hl : l ∈ m.layers) :
    ∃ g, m.toOccupancyGrid rf l [] = .ok g := by
  obtain ⟨g, hg, -⟩ := C51_header rf h.geo h.coherent ((h.coherent.mem_iff l).1 hl) (by have := h.time; omega) []
  exact ⟨g, hg⟩

end CostMapModel

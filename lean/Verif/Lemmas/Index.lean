import Verif.Spec.Geometry

/-! # Circular-buffer index arithmetic -/

set_option linter.unusedSectionVars false

namespace CostMapModel

theorem inRange_iff {i size : Idx} : inRange i size = true ↔ i.In size := by
  simp only [inRange, Idx.In, Bool.and_eq_true, decide_eq_true_eq]
  constructor
  · rintro ⟨⟨⟨a, b⟩, c⟩, d⟩; exact ⟨a, c, b, d⟩
  · rintro ⟨a, c, b, d⟩; exact ⟨⟨⟨a, b⟩, c⟩, d⟩

theorem wrap1_of_in {i n : Int} (h : 0 ≤ i) (h' : i < n) : wrap1 i n = i := Int.emod_eq_of_lt h h'

theorem wrap1_range {i n : Int} (hn : 0 < n) : 0 ≤ wrap1 i n ∧ wrap1 i n < n :=
  ⟨Int.emod_nonneg _ (by omega), Int.emod_lt_of_pos _ hn⟩

/-- Wrapping in the range one buffer length to either side. -/
theorem wrap1_eq {i n : Int} (h : -n ≤ i) (h' : i < 2 * n) :
    wrap1 i n = if i < 0 then i + n else if i < n then i else i - n := by
  unfold wrap1
  split
  · have : i.emod n = (i + n).emod n := (Int.add_emod_right i n).symm
    rw [this]; exact Int.emod_eq_of_lt (by omega) (by omega)
  · split
    · exact Int.emod_eq_of_lt (by omega) (by omega)
    · have : i.emod n = (i - n).emod n := (Int.sub_emod_right i n).symm
      rw [this]; exact Int.emod_eq_of_lt (by omega) (by omega)

theorem clamp1_of_in {i n : Int} (h : 0 ≤ i) (h' : i < n) : clamp1 i n = i := by
  unfold clamp1; split <;> [omega; split <;> omega]

theorem clamp1_range {i n : Int} (hn : 0 < n) : 0 ≤ clamp1 i n ∧ clamp1 i n < n := by
  unfold clamp1; split <;> [omega; split <;> omega]

/-- Explicit form of unwrapping, one axis. -/
def unw (i n s : Int) : Int := if s ≤ i then i - s else i - s + n
/-- Explicit form of wrapping, one axis. -/
def buf (u n s : Int) : Int := if u + s < n then u + s else u + s - n

theorem unwrapIdx_eq {i size start : Idx} (hi : i.In size) (hs : start.In size) :
    unwrapIdx i size start = ⟨unw i.x size.x start.x, unw i.y size.y start.y⟩ := by
  obtain ⟨i1, i2, i3, i4⟩ := hi
  obtain ⟨s1, s2, s3, s4⟩ := hs
  unfold unwrapIdx unw
  split
  · rename_i h; subst h
    ext <;> simp <;> omega
  · ext
    · simp only [bound2, Idx.sub_x]
      rw [wrap1_eq (by omega) (by omega)]
      split <;> split <;> (try split) <;> omega
    · simp only [bound2, Idx.sub_y]
      rw [wrap1_eq (by omega) (by omega)]
      split <;> split <;> (try split) <;> omega

theorem bufferIdx_eq {u size start : Idx} (hu : u.In size) (hs : start.In size) :
    bufferIdx u size start = ⟨buf u.x size.x start.x, buf u.y size.y start.y⟩ := by
  obtain ⟨i1, i2, i3, i4⟩ := hu
  obtain ⟨s1, s2, s3, s4⟩ := hs
  unfold bufferIdx buf
  split
  · rename_i h; subst h
    ext <;> simp <;> omega
  · ext
    · simp only [bound2, Idx.add_x]
      rw [wrap1_eq (by omega) (by omega)]
      split <;> split <;> omega
    · simp only [bound2, Idx.add_y]
      rw [wrap1_eq (by omega) (by omega)]
      split <;> split <;> omega

theorem unwrapIdx_in {i size start : Idx} (hi : i.In size) (hs : start.In size) :
    (unwrapIdx i size start).In size := by
  rw [unwrapIdx_eq hi hs]
  obtain ⟨i1, i2, i3, i4⟩ := hi
  obtain ⟨s1, s2, s3, s4⟩ := hs
  unfold Idx.In unw
  refine ⟨?_, ?_, ?_, ?_⟩ <;> simp only <;> split <;> omega

theorem bufferIdx_in {i size start : Idx} (hi : i.In size) (hs : start.In size) :
    (bufferIdx i size start).In size := by
  rw [bufferIdx_eq hi hs]
  obtain ⟨i1, i2, i3, i4⟩ := hi
  obtain ⟨s1, s2, s3, s4⟩ := hs
  unfold Idx.In buf
  refine ⟨?_, ?_, ?_, ?_⟩ <;> simp only <;> split <;> omega

theorem unwrap_buffer {u size start : Idx} (hu : u.In size) (hs : start.In size) :
    unwrapIdx (bufferIdx u size start) size start = u := by
  rw [unwrapIdx_eq (bufferIdx_in hu hs) hs, bufferIdx_eq hu hs]
  obtain ⟨i1, i2, i3, i4⟩ := hu
  obtain ⟨s1, s2, s3, s4⟩ := hs
  unfold unw buf
  ext <;> simp only <;> split <;> split <;> omega

theorem buffer_unwrap {i size start : Idx} (hi : i.In size) (hs : start.In size) :
    bufferIdx (unwrapIdx i size start) size start = i := by
  rw [bufferIdx_eq (unwrapIdx_in hi hs) hs, unwrapIdx_eq hi hs]
  obtain ⟨i1, i2, i3, i4⟩ := hi
  obtain ⟨s1, s2, s3, s4⟩ := hs
  unfold unw buf
  ext <;> simp only <;> split <;> split <;> omega

end CostMapModel

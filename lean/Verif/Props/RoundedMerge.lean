import Verif.Lemmas.RoundedExtend
import Verif.Props.RoundedMove

/-!
# Merging maps in floating point: C76 and C77

Proved for any arithmetic whose operations have a relative error of at most `2^-53` (`C73_double`).
-/

set_option linter.unusedSectionVars false

namespace CostMapModel
open CostMap
variable {K : Type} [Field K] [LinearOrder K] [IsStrictOrderedRing K] [FloorRing K]

/-! ## C74, C76: cell by cell -/

/-- C74. A position that lies in the square of a cell, further than the tolerance from the border of the square, passes the
inside test and gets exactly that cell. -/
theorem C74_interior_of_cell {rd : K → K} (hrd : DoublePrecision rd) {m : CostMap K} (h : m.GeoRd rd) (ht : m.Tame) {i : Idx}
    (hi : i.In m.size) {p : Vec K}
    (hx : |p.x - (m.position.x + ((m.size.x : K) / 2 - (m.logical i).x - 1 / 2) * m.resolution)| ≤
      m.resolution / 2 - m.tolX)
    (hy : |p.y - (m.position.y + ((m.size.y : K) / 2 - (m.logical i).y - 1 / 2) * m.resolution)| ≤
      m.resolution / 2 - m.tolY) :
    m.isInsideRd rd p = true ∧ m.getIndexRd rd p = (i, true) := by
  obtain ⟨u1, u2, u3, u4⟩ := unwrapIdx_in hi h.start
  rw [logical_eq_unwrap hi] at hx hy
  rw [tolX_eq, show m.position.x + ((m.size.x : K) / 2 - (unwrapIdx i m.size m.startIndex).x - 1 / 2) * m.resolution =
      m.position.x + m.size.x * m.resolution / 2 - m.resolution / 2 -
        m.resolution * (unwrapIdx i m.size m.startIndex).x by ring] at hx
  rw [tolY_eq, show m.position.y + ((m.size.y : K) / 2 - (unwrapIdx i m.size m.startIndex).y - 1 / 2) * m.resolution =
      m.position.y + m.size.y * m.resolution / 2 - m.resolution / 2 -
        m.resolution * (unwrapIdx i m.size m.startIndex).y by ring] at hy
  obtain ⟨x1, x2, x3⟩ := (axis_x h ht).cell_exact hrd u1 u2 hx
  obtain ⟨y1, y2, y3⟩ := (axis_y h ht).cell_exact hrd u3 u4 hy
  have hin : m.isInsideRd rd p = true := by
    simp only [isInsideRd, withinMapRd, Bool.and_eq_true, decide_eq_true_eq]
    exact ⟨⟨⟨x1, y1⟩, x2⟩, y2⟩
  refine ⟨hin, ?_⟩
  unfold getIndexRd indexFromPositionRd
  rw [x3, y3]
  exact Prod.ext (buffer_unwrap hi h.start) hin

/-- C76. Without rounding the functions are those of the exact model. -/
theorem C76_exact_arithmetic (m other : CostMap K) (extend overwrite all : Bool) (ls : List String) :
    extendToIncludeRd id other m = extendToInclude other m ∧
    addDataFromRd id other extend overwrite all ls m = addDataFrom other extend overwrite all ls m := ⟨rfl, rfl⟩

theorem opposite_iff {m o : CostMap K} (ho : o.startIndex.In o.size) {k i j : Idx} :
    Opposite m o k i j ↔ (m.logical i + k).In o.size ∧ j = bufferIdx (m.logical i + k) o.size o.startIndex := by
  constructor
  · rintro ⟨hj, e⟩
    rw [← e, logical_eq_unwrap hj]
    exact ⟨unwrapIdx_in hj ho, (buffer_unwrap hj ho).symm⟩
  · rintro ⟨hv, rfl⟩
    have := bufferIdx_in hv ho
    exact ⟨this, by rw [logical_eq_unwrap this, unwrap_buffer hv ho]⟩

/-- C76. Merging without extension, in floating point, two maps of the same resolution whose grids agree up to a quarter of
a cell. The call succeeds and keeps the geometry; every cell of a requested layer takes the valid cost of the cell of the
other map at its place, and only that: what has no counterpart, or one without information, or must not be overwritten,
stays. -/
theorem C76_merges_cell_by_cell {rd : K → K} (hrd : DoublePrecision rd) {m other : CostMap K} (hg : m.GeoRd rd)
    (ht : m.Tame43) (hc : m.Coherent) (hog : other.GeoRd rd) (hot : other.Tame43) (hoc : other.Coherent) {k : Idx}
    (hk : OnGrid (m.resolution / 4) m other k) (overwrite all : Bool) (ls req : List String)
    (hreq : req = if all then other.layers else ls) (hls : ∀ l ∈ req, other.exists l = true)
    (hb : ∀ l ∈ m.basicLayers, m.exists l = true ∨ l ∈ req) :
    ∃ m', addDataFromRd rd other false overwrite all ls m = (.ok true, m') ∧ SameGeometry m m' ∧ SameMeta m m' ∧
      m'.Coherent ∧ (∀ l, m'.exists l = true ↔ m.exists l = true ∨ l ∈ req) ∧
      ∀ l i, i.In m.size →
        (∀ j c, l ∈ req → (overwrite = true ∨ ¬ m.ValidCell i) → Opposite m other k i j → other.at l j = .ok c →
          c ≠ NO_INFORMATION → m'.at l i = .ok c) ∧
        (¬ (l ∈ req ∧ (overwrite = true ∨ ¬ m.ValidCell i) ∧
            ∃ j c, Opposite m other k i j ∧ other.at l j = .ok c ∧ c ≠ NO_INFORMATION) →
          (m.exists l = true → m'.at l i = m.at l i) ∧
          (m.exists l = false → l ∈ req → m'.at l i = .ok NO_INFORMATION)) := by
  classical
  obtain ⟨m1, e1, hc1, hg1, hm1, hx1, ha1, hn1, -⟩ := addMissing_spec req hc hg.size_x.le hg.size_y.le
  obtain ⟨m2, e2, hs2, hat2⟩ := mergeCellsRd_spec (rd := rd) hoc overwrite hls (m := m1)
    (by rw [hg1.startIndex, hg1.size]; exact hg.start) hc1
    (fun l hl => (hx1 l).mpr (hb l (by rw [← hm1.basicLayers]; exact hl))) (fun l hl => (hx1 l).mpr (Or.inr hl))
    (t := fun i => if (m.logical i + k).In other.size then
      some (bufferIdx (m.logical i + k) other.size other.startIndex) else none)
    (fun i hi => (found_on_grid hrd hg ht hog hot hk (by rw [← hg1.size]; exact hi)).congr hg1)
  refine ⟨m2, ?_, ?_, ?_, hs2.coherent hc1, ?_, ?_⟩
  · unfold addDataFromRd
    rw [← hreq]
    simp only [Bool.false_eq_true, if_false]
    rw [Act.bind_ok (show (Act.pure true : Act (CostMap K) Bool) m = (.ok true, m) from rfl), Act.bind_ok e1,
      Act.bind_ok e2]
    rfl
  · have := hs2.geo
    exact ⟨this.length.trans hg1.length, this.resolution.trans hg1.resolution, this.position.trans hg1.position,
      this.size.trans hg1.size, this.startIndex.trans hg1.startIndex⟩
  · have := hs2.info
    exact ⟨this.frameId.trans hm1.frameId, this.timestamp.trans hm1.timestamp,
      this.basicLayers.trans hm1.basicLayers⟩
  · intro l
    rw [← hx1]
    have := hs2.isSome l
    simp only [CostMap.exists, this]
  · intro l i hi
    have hvc : m1.ValidCell i ↔ m.ValidCell i := by
      unfold ValidCell
      rw [hm1.basicLayers]
      constructor
      · rintro ⟨h1, h2⟩
        refine ⟨h1, fun l hl => ?_⟩
        obtain ⟨c, hc', hne⟩ := h2 l hl
        by_cases hex : m.exists l = true
        · rw [ha1 l i hex] at hc'; exact ⟨c, hc', hne⟩
        · have hmem := (hb l hl).resolve_left hex
          rw [Bool.not_eq_true] at hex
          rw [hn1 l i hex hmem hi] at hc'
          cases hc'
          exact absurd rfl hne
      · rintro ⟨h1, h2⟩
        refine ⟨h1, fun l hl => ?_⟩
        obtain ⟨c, hc', hne⟩ := h2 l hl
        have hex : m.exists l = true := by
          by_contra h
          rw [Bool.not_eq_true] at h
          rw [at_none (exists_false_iff.mp h)] at hc'; cases hc'
        exact ⟨c, by rw [ha1 l i hex]; exact hc', hne⟩
    have hat := hat2 l i (by rw [hg1.size]; exact hi)
    rw [hvc] at hat
    have hvalid : ∀ c, (∃ j, Opposite m other k i j ∧ other.at l j = .ok c ∧ c ≠ NO_INFORMATION) ↔
        validOf other l (if (m.logical i + k).In other.size then
          some (bufferIdx (m.logical i + k) other.size other.startIndex) else none) = some c := by
      intro c
      simp only [opposite_iff hog.start]
      by_cases hv : (m.logical i + k).In other.size
      · simp only [hv, if_true, true_and, exists_eq_left, validOf]
        cases other.at l (bufferIdx (m.logical i + k) other.size other.startIndex) with
        | ok d =>
          simp only [Res.ok.injEq]
          by_cases hd : d = NO_INFORMATION
          · subst hd
            simp only [if_true]
            constructor
            · rintro ⟨rfl, h2⟩; exact absurd rfl h2
            · intro h; cases h
          · simp only [hd, if_false, Option.some.injEq]
            constructor
            · exact fun h => h.1
            · rintro rfl; exact ⟨rfl, hd⟩
        | _ => simp
      · simp [hv, validOf]
    constructor
    · intro j c hl hov hop hoa hne
      rw [hat, if_pos ⟨hl, hov⟩, (hvalid c).mp ⟨j, hop, hoa, hne⟩]
    · intro hn
      have : (if l ∈ req ∧ (overwrite = true ∨ ¬ m.ValidCell i) then
          validOf other l (if (m.logical i + k).In other.size then
            some (bufferIdx (m.logical i + k) other.size other.startIndex) else none) else none) = none := by
        split
        · rename_i h
          cases hv : validOf other l (if (m.logical i + k).In other.size then
            some (bufferIdx (m.logical i + k) other.size other.startIndex) else none) with
          | none => rfl
          | some c =>
            obtain ⟨j, hj⟩ := (hvalid c).mpr hv
            exact absurd ⟨h.1, h.2, j, c, hj⟩ hn
        · rfl
      rw [hat, this]
      exact ⟨fun hex => ha1 l i hex, fun hex hl => hn1 l i hex hl hi⟩

/-! ## C77: extending -/

/-- The empty map the old data is copied to. -/
def emptyRd (rd : K → K) (m : CostMap K) (size : Idx) (pos : Vec K) : CostMap K :=
  { (m.resize size).clearAll with
    length := ⟨rd ((size.x : K) * m.resolution), rd ((size.y : K) * m.resolution)⟩, position := pos, startIndex := 0 }

theorem emptyRd_at {rd : K → K} {m : CostMap K} {size : Idx} {pos : Vec K} {l : String}
    (hl : (emptyRd rd m size pos).exists l = true) {i : Idx} (hi : i.In size) :
    (emptyRd rd m size pos).at l i = .ok NO_INFORMATION := by
  have hl : m.exists l = true := by simpa [emptyRd, resize, clearAll, CostMap.exists] using hl
  obtain ⟨a, ha⟩ := exists_iff.mp hl
  obtain ⟨h1, h2, h3, h4⟩ := hi
  have hd : (emptyRd rd m size pos).data l =
      some ((Mat.const size.x.toNat size.y.toNat 0).setConstant NO_INFORMATION) := by
    simp [emptyRd, resize, clearAll, ha]
  rw [at_eq hd, Mat.get?_setConstant, Mat.get?_const, if_pos (by omega)]
  rfl

theorem emptyRd_coherent {rd : K → K} {m : CostMap K} (hc : m.Coherent) {size : Idx} {pos : Vec K} (hx : 0 ≤ size.x)
    (hy : 0 ≤ size.y) : (emptyRd rd m size pos).Coherent := by
  refine ⟨hc.nodup, fun l => ?_, fun l a ha => ?_⟩
  · simp only [emptyRd, resize, clearAll, Option.map_map, Option.isSome_map]
    exact hc.mem_iff l
  · simp only [emptyRd, resize, clearAll, Option.map_map] at ha
    obtain ⟨b, -, rfl⟩ := Option.map_eq_some_iff.mp ha
    simp only [Function.comp, Mat.rows_setConstant, Mat.cols_setConstant, Mat.rows_const, Mat.cols_const]
    show _ = size.x ∧ _ = size.y
    omega

/-- Everything about a call of `extendToInclude` in floating point. -/
theorem extendRd_spec {rd : K → K} (hrd : DoublePrecision rd) {m other : CostMap K} (h : m.GeoRd rd) (hc : m.Coherent)
    (hb : ∀ l ∈ m.basicLayers, m.exists l = true) {B : K} (hB : B ≤ 2 ^ 39 * m.resolution) (hm : m.Within B m.resolution)
    (ho : other.Within B m.resolution) :
    ∃ m' k, extendToIncludeRd rd other m = (.ok true, m') ∧ m'.GeoRd rd ∧ m'.Tame43 ∧ m'.Coherent ∧ SameMeta m m' ∧
      m'.layers = m.layers ∧ m'.resolution = m.resolution ∧ m.size.x ≤ m'.size.x ∧ m.size.y ≤ m'.size.y ∧
      OnGrid (B / 2 ^ 45) m' m k ∧
      (∀ l, m.exists l = true → ∀ i, i.In m'.size →
        (∀ j, Opposite m' m k i j → m'.at l i = m.at l j) ∧
        ((¬ ∃ j, Opposite m' m k i j) → m'.at l i = .ok NO_INFORMATION)) ∧
      ∀ a b, GrowsBy m other a b → m'.size = m.size + a + b ∧ k = ⟨-a.x, -a.y⟩ := by
  have hr := h.res_pos
  have hB0 : 0 ≤ B := by
    have := hm.x; have := abs_nonneg m.position.x; have := abs_nonneg m.length.x; linarith
  rcases ex : extendAxisRd rd m.position.x m.length.x other.position.x other.length.x with ⟨px, lx, bx⟩
  rcases ey : extendAxisRd rd m.position.y m.length.y other.position.y other.length.y with ⟨py, ly, by'⟩
  have e16 : 16 * B ≤ 2 ^ 43 * m.resolution := by linarith
  unfold extendToIncludeRd
  rw [ex, ey]
  dsimp only
  by_cases hbr : (bx || by') = true
  · rw [if_pos hbr]
    obtain ⟨Nx, hNx⟩ : ∃ N, N = roundHalfAway (rd (lx / m.resolution)) := ⟨_, rfl⟩
    obtain ⟨Ny, hNy⟩ : ∃ N, N = roundHalfAway (rd (ly / m.resolution)) := ⟨_, rfl⟩
    obtain ⟨x1, x2, ⟨kx, x3, x4⟩, x5⟩ := extend_axis hrd hr h.size_x h.len_x hB hm.x ho.x ex hNx
    obtain ⟨y1, y2, ⟨ky, y3, y4⟩, y5⟩ := extend_axis hrd hr h.size_y h.len_y hB hm.y ho.y ey hNy
    set q : Vec K := ⟨alignAxisRd rd m.resolution px m.position.x Nx m.size.x,
      alignAxisRd rd m.resolution py m.position.y Ny m.size.y⟩ with hq
    have hsx := h.size_x
    have hsy := h.size_y
    have e1 : setGeometryRd rd ⟨lx, ly⟩ m.resolution ⟨px, py⟩ m = (.ok (), emptyRd rd m ⟨Nx, Ny⟩ ⟨px, py⟩) := by
      unfold setGeometryRd
      rw [if_neg (not_not.2 x1), if_neg (not_not.2 y1), if_neg (not_not.2 hr), ← hNx, ← hNy]
      rfl
    have e2 : alignToRd rd m (emptyRd rd m ⟨Nx, Ny⟩ ⟨px, py⟩) = (.ok (), emptyRd rd m ⟨Nx, Ny⟩ q) := rfl
    have hg1 : (emptyRd rd m ⟨Nx, Ny⟩ q).GeoRd rd :=
      ⟨hr, show 0 < Nx by omega, show 0 < Ny by omega, rfl, rfl,
        ⟨le_rfl, show 0 < Nx by omega, le_rfl, show 0 < Ny by omega⟩⟩
    have ht1 : (emptyRd rd m ⟨Nx, Ny⟩ q).Tame43 := ⟨le_trans x5 e16, le_trans y5 e16⟩
    have htm : m.Tame43 := by
      have step : ∀ {n : Int} {pos len : K}, 1 ≤ n → len = rd ((n : K) * m.resolution) →
          |pos| + |len| + m.resolution ≤ B → extent n pos m.resolution ≤ 2 ^ 43 * m.resolution := by
        intro n pos len hn hl hw
        have h1 : (1 : K) ≤ n := by exact_mod_cast hn
        have h2 := rd_lower hrd ((n : K) * m.resolution)
        rw [← hl, abs_of_nonneg (mul_nonneg (by linarith) hr.le)] at h2
        unfold extent
        have := abs_nonneg pos
        rw [add_mul]
        linarith
      exact ⟨step h.size_x h.len_x hm.x, step h.size_y h.len_y hm.y⟩
    have hcl := emptyRd_coherent (rd := rd) (pos := q) hc (size := ⟨Nx, Ny⟩) (show 0 ≤ Nx by omega) (show 0 ≤ Ny by omega)
    have hk : OnGrid (B / 2 ^ 45) (emptyRd rd m ⟨Nx, Ny⟩ q) m ⟨kx, ky⟩ := ⟨rfl, x3, y3⟩
    have b4 : B / 2 ^ 45 ≤ m.resolution / 4 := by
      rw [div_le_iff₀ (by positivity)]; nlinarith
    have hk4 : OnGrid ((emptyRd rd m ⟨Nx, Ny⟩ q).resolution / 4) (emptyRd rd m ⟨Nx, Ny⟩ q) m ⟨kx, ky⟩ :=
      ⟨hk.res, hk.x.trans b4, hk.y.trans b4⟩
    obtain ⟨m', e3, hs, hat⟩ := restoreCellsRd_spec (rd := rd) hc (m := emptyRd rd m ⟨Nx, Ny⟩ q) hg1.start hcl rfl
      (fun l hl => by
        have := hb l hl
        simpa [emptyRd, resize, clearAll, CostMap.exists] using this)
      (fun l i hl hi => emptyRd_at hl hi) (fun i hi => found_on_grid hrd hg1 ht1 h htm hk4 hi)
    have g := hs.geo
    have hsize : m'.size = ⟨Nx, Ny⟩ := g.size
    refine ⟨m', ⟨kx, ky⟩, ?_, ?_, ?_, hs.coherent hcl, ⟨hs.info.frameId, hs.info.timestamp, hs.info.basicLayers⟩, hs.layers,
      g.resolution, by rw [hsize]; exact x2, by rw [hsize]; exact y2, ?_, ?_, ?_⟩
    · rw [Act.bind_ok e1, Act.bind_ok e2, Act.bind_ok e3]; rfl
    · exact ⟨by rw [g.resolution]; exact hg1.res_pos, by rw [g.size]; exact hg1.size_x, by rw [g.size]; exact hg1.size_y,
        by rw [g.length, g.size, g.resolution]; exact hg1.len_x, by rw [g.length, g.size, g.resolution]; exact hg1.len_y,
        by rw [g.startIndex, g.size]; exact hg1.start⟩
    · exact ⟨by rw [g.size, g.position, g.resolution]; exact ht1.x, by rw [g.size, g.position, g.resolution]; exact ht1.y⟩
    · exact ⟨by rw [g.resolution]; exact hk.res,
        by simp only [corner, g.size, g.position, g.resolution]; exact hk.x,
        by simp only [corner, g.size, g.position, g.resolution]; exact hk.y⟩
    · intro l hl i hi
      have hlog : m'.logical i = (emptyRd rd m ⟨Nx, Ny⟩ q).logical i := by
        simp only [logical, g.startIndex, g.size]
      have hi' : i.In (emptyRd rd m ⟨Nx, Ny⟩ q).size := by rw [← g.size]; exact hi
      have hv := hat l (by simpa [emptyRd, resize, clearAll, CostMap.exists] using hl) i hi'
      rw [← hlog] at hv
      simp only [opposite_iff h.start]
      constructor
      · rintro j ⟨h1, rfl⟩
        rw [if_pos h1] at hv
        exact hv
      · intro hno
        have h1 : ¬ (m'.logical i + ⟨kx, ky⟩).In m.size := fun h1 => hno ⟨_, h1, rfl⟩
        rw [if_neg h1] at hv
        exact hv
    · intro a b hab
      obtain ⟨u1, u2⟩ := x4 a.x b.x hab.order_x.1 hab.order_x.2.1 hab.order_x.2.2 hab.x.1 hab.x.2
      obtain ⟨v1, v2⟩ := y4 a.y b.y hab.order_y.1 hab.order_y.2.1 hab.order_y.2.2 hab.y.1 hab.y.2
      rw [hsize, u1, u2, v1, v2]
      exact ⟨by ext <;> simp, rfl⟩
  · rw [if_neg hbr]
    rw [Bool.not_eq_true, Bool.or_eq_false_iff] at hbr
    have hx0 : |m.position.x| + |m.length.x| ≤ B := by have := hm.x; linarith
    have hy0 : |m.position.y| + |m.length.y| ≤ B := by have := hm.y; linarith
    have hx1 : |other.position.x| + |other.length.x| ≤ B := by have := ho.x; linarith
    have hy1 : |other.position.y| + |other.length.y| ≤ B := by have := ho.y; linarith
    obtain ⟨-, -, gx, -⟩ := extendAxisRd_near hrd hx0 hx1
    obtain ⟨-, -, gy, -⟩ := extendAxisRd_near hrd hy0 hy1
    rw [ex] at gx
    rw [ey] at gy
    obtain ⟨-, ox, ux⟩ := gx hbr.1
    obtain ⟨-, oy, uy⟩ := gy hbr.2
    have hlog : ∀ i, i.In m.size → m.logical i + (0 : Idx) = m.logical i := fun i _ => by ext <;> simp
    have ε1 : 1024 * (16 * B / 2 ^ 53) ≤ m.resolution := by
      rw [← mul_div_assoc, div_le_iff₀ (by positivity)]
      nlinarith
    have small : ∀ {o : K} {a : Int}, 0 ≤ a → o ≤ 8 * (16 * B / 2 ^ 53) → |o - a * m.resolution| ≤ m.resolution / 16 →
        a = 0 := by
      intro o a ha ho' hoa
      rw [abs_le] at hoa
      have : (a : K) * m.resolution < 1 * m.resolution := by linarith
      have := lt_of_mul_lt_mul_right this hr.le
      have : a < 1 := by exact_mod_cast this
      omega
    have htm : m.Tame43 := by
      have step : ∀ {n : Int} {pos len : K}, 1 ≤ n → len = rd ((n : K) * m.resolution) →
          |pos| + |len| + m.resolution ≤ B → extent n pos m.resolution ≤ 2 ^ 43 * m.resolution := by
        intro n pos len hn hl hw
        have h1 : (1 : K) ≤ n := by exact_mod_cast hn
        have h2 := rd_lower hrd ((n : K) * m.resolution)
        rw [← hl, abs_of_nonneg (mul_nonneg (by linarith) hr.le)] at h2
        unfold extent
        have := abs_nonneg pos
        rw [add_mul]
        linarith
      exact ⟨step h.size_x h.len_x hm.x, step h.size_y h.len_y hm.y⟩
    refine ⟨m, 0, rfl, h, htm, hc, ⟨rfl, rfl, rfl⟩, rfl, rfl, le_rfl, le_rfl, ⟨rfl, ?_, ?_⟩, ?_, ?_⟩
    · simp; positivity
    · simp; positivity
    · intro l hl i hi
      simp only [opposite_iff h.start]
      rw [hlog i hi, logical_eq_unwrap hi]
      constructor
      · rintro j ⟨-, rfl⟩
        rw [buffer_unwrap hi h.start]
      · intro hno
        exact absurd ⟨_, unwrapIdx_in hi h.start, rfl⟩ hno
    · intro a b hab
      have a1 := small (by have := hab.order_x; omega) ox hab.x.1
      have a2 := small (by have := hab.order_x; omega) ux hab.x.2
      have a3 := small (by have := hab.order_y; omega) oy hab.y.1
      have a4 := small (by have := hab.order_y; omega) uy hab.y.2
      constructor
      · ext <;> simp [a1, a2, a3, a4]
      · ext <;> simp [a1, a3]

/-- C77. Extending in floating point, whatever the other map: the call succeeds, the grid of the new map is that of the old
one up to rounding, and every cell of the new map has the costs of the cell of the old map at its place, or no
information. -/
theorem C77_data_stays {rd : K → K} (hrd : DoublePrecision rd) {m other : CostMap K} (h : m.GeoRd rd) (hc : m.Coherent)
    (hb : ∀ l ∈ m.basicLayers, m.exists l = true) {B : K} (hB : B ≤ 2 ^ 39 * m.resolution) (hm : m.Within B m.resolution)
    (ho : other.Within B m.resolution) :
    ∃ m' k, extendToIncludeRd rd other m = (.ok true, m') ∧ m'.GeoRd rd ∧ m'.Coherent ∧ SameMeta m m' ∧
      m'.layers = m.layers ∧ m'.resolution = m.resolution ∧ m.size.x ≤ m'.size.x ∧ m.size.y ≤ m'.size.y ∧
      OnGrid (B / 2 ^ 45) m' m k ∧
      ∀ l, m.exists l = true → ∀ i, i.In m'.size →
        (∀ j, Opposite m' m k i j → m'.at l i = m.at l j) ∧
        ((¬ ∃ j, Opposite m' m k i j) → m'.at l i = .ok NO_INFORMATION) := by
  obtain ⟨m', k, e, h1, -, h2, h3, h4, h5, h6, h7, h8, h9, -⟩ := extendRd_spec hrd h hc hb hB hm ho
  exact ⟨m', k, e, h1, h2, h3, h4, h5, h6, h7, h8, h9⟩

/-- One axis of "covers both". -/
theorem covers_axis {rd : K → K} (hrd : DoublePrecision rd) {pos len pos' len' q lq r B : K} {n a b : Int} (hr : 0 < r)
    (hn : 1 ≤ n) (hlen : len = rd ((n : K) * r)) (hlq : lq = rd (((n + a + b : Int) : K) * r)) (ha : 0 ≤ a) (hb : 0 ≤ b)
    (hB : B ≤ 2 ^ 39 * r) (h : |pos| + |len| + r ≤ B) (h' : |pos'| + |len'| + r ≤ B)
    (hk : |(pos + n * r / 2) - (q + ((n + a + b : Int) : K) * r / 2) - ((-a : Int) : K) * r| ≤ B / 2 ^ 45)
    (h1 : |over pos len pos' len' - a * r| ≤ r / 16) (h2 : |under pos len pos' len' - b * r| ≤ r / 16) :
    pos + len / 2 ≤ q + lq / 2 + B / 2 ^ 44 ∧ q - lq / 2 - B / 2 ^ 44 ≤ pos - len / 2 ∧
    pos' + len' / 2 ≤ q + lq / 2 + r / 8 ∧ q - lq / 2 - r / 8 ≤ pos' - len' / 2 := by
  have p0 := abs_nonneg pos
  have l0 := abs_nonneg len
  have hB0 : 0 ≤ B := by linarith
  obtain ⟨-, -, -, g4, g5⟩ := extendAxisRd_near hrd (B := B) (by linarith : |pos| + |len| ≤ B)
    (by linarith : |pos'| + |len'| ≤ B)
  have o1 : pos' + len' / 2 - (pos + len / 2) ≤ over pos len pos' len' := le_max_right _ _
  have o2 : pos - len / 2 - (pos' - len' / 2) ≤ under pos len pos' len' := le_max_right _ _
  generalize over pos len pos' len' = o at *
  generalize under pos len pos' len' = u at *
  have hT : 0 ≤ 16 * B := by linarith
  have n45 : B / 2 ^ 45 = 16 * (16 * B / 2 ^ 53) := by
    rw [← mul_div_assoc, div_eq_div_iff (by positivity) (by positivity)]; ring
  have n44 : B / 2 ^ 44 = 32 * (16 * B / 2 ^ 53) := by
    rw [← mul_div_assoc, div_eq_div_iff (by positivity) (by positivity)]; ring
  have ε1 : 1024 * (16 * B / 2 ^ 53) ≤ r := by
    rw [← mul_div_assoc, div_le_iff₀ (by positivity)]
    nlinarith
  have hn' : (1 : K) ≤ n := by exact_mod_cast hn
  have ha' : (0 : K) ≤ a := by exact_mod_cast ha
  have hb' : (0 : K) ≤ b := by exact_mod_cast hb
  have nr : 0 ≤ (n : K) * r := mul_nonneg (by linarith) hr.le
  have ar : 0 ≤ (a : K) * r := mul_nonneg ha' hr.le
  have br : 0 ≤ (b : K) * r := mul_nonneg hb' hr.le
  have ll := le_abs_self len
  have nr' : (n : K) * r ≤ 2 * B := by
    have := rd_lower hrd ((n : K) * r)
    rw [← hlen, abs_of_nonneg nr] at this
    linarith
  rw [abs_le] at h1 h2 hk
  have hl := rd_step1 (x := (n : K) * r) (y := n * r) (c := 0) hrd hT (by positivity) (by simp)
      (by rw [abs_of_nonneg nr]; linarith)
  have hl' := rd_step1 (x := ((n + a + b : Int) : K) * r) (y := ((n + a + b : Int) : K) * r) (c := 0) hrd hT
      (by positivity) (by simp) (by push_cast; rw [add_mul, add_mul, abs_of_nonneg (by linarith)]; linarith)
  rw [← hlen] at hl
  rw [← hlq] at hl'
  have ε0 : 0 ≤ 16 * B / 2 ^ 53 := div_nonneg hT (by positivity)
  rw [n44]
  rw [n45] at hk
  generalize 16 * B / 2 ^ 53 = ε at *
  push_cast at hl' hk
  rw [add_mul, add_mul] at hl' hk
  rw [abs_le] at hl hl'
  obtain ⟨hk1, hk2⟩ := hk
  obtain ⟨hl1, hl2⟩ := hl
  obtain ⟨hl3, hl4⟩ := hl'
  obtain ⟨h3, h4⟩ := h1
  obtain ⟨h5, h6⟩ := h2
  refine ⟨?_, ?_, ?_, ?_⟩
  · linarith only [hk1, hk2, hl1, hl2, hl3, hl4, ε0, ar, br]
  · linarith only [hk1, hk2, hl1, hl2, hl3, hl4, ε0, ar, br]
  · linarith only [hk1, hk2, hl1, hl2, hl3, hl4, ε0, ε1, h3, h4, h5, h6, o1, o2, hr]
  · linarith only [hk1, hk2, hl1, hl2, hl3, hl4, ε0, ε1, h3, h4, h5, h6, o1, o2, hr]

/-- C77 (partial: only when on each axis the map grows by an even number of cells more above than below; false otherwise,
see `C77_false_downwards` and `C77_false_odd`). The new map has the cells that were missing, `a` above and `b` below; its
extent covers the old one up to rounding and that of the other map up to an eighth of a cell. -/
theorem C77_covers_both_partial {rd : K → K} (hrd : DoublePrecision rd) {m other : CostMap K} (h : m.GeoRd rd)
    (hc : m.Coherent) (hb : ∀ l ∈ m.basicLayers, m.exists l = true) {B : K} (hB : B ≤ 2 ^ 39 * m.resolution)
    (hm : m.Within B m.resolution) (ho : other.Within B m.resolution) {a b : Idx} (hab : GrowsBy m other a b) :
    ∃ m', extendToIncludeRd rd other m = (.ok true, m') ∧ m'.size = m.size + a + b ∧
      CoversUpTo (B / 2 ^ 44) m' m ∧ CoversUpTo (m.resolution / 8) m' other ∧
      ∀ l, m.exists l = true → ∀ j, j.In m.size → ∃ i, i.In m'.size ∧ m'.logical i = m.logical j + a ∧
        m'.at l i = m.at l j := by
  obtain ⟨m', k, e, h1, -, -, -, -, h5, -, -, h8, h9, h10⟩ := extendRd_spec hrd h hc hb hB hm ho
  obtain ⟨hs, rfl⟩ := h10 a b hab
  have x := h8.x
  have y := h8.y
  simp only [corner, hs, h5, Idx.add_x, Idx.add_y] at x y
  have lx := h1.len_x
  have ly := h1.len_y
  simp only [hs, h5, Idx.add_x, Idx.add_y] at lx ly
  obtain ⟨x1, x2, x3, x4⟩ := covers_axis hrd h.res_pos h.size_x h.len_x lx (by have := hab.order_x; omega) hab.order_x.1 hB
    hm.x ho.x x hab.x.1 hab.x.2
  obtain ⟨y1, y2, y3, y4⟩ := covers_axis hrd h.res_pos h.size_y h.len_y ly (by have := hab.order_y; omega) hab.order_y.1 hB
    hm.y ho.y y hab.y.1 hab.y.2
  refine ⟨m', e, hs, ⟨x1, x2, y1, y2⟩, ⟨x3, x4, y3, y4⟩, fun l hl j hj => ?_⟩
  have hu := unwrapIdx_in hj h.start
  rw [← logical_eq_unwrap hj] at hu
  have ox := hab.order_x
  have oy := hab.order_y
  have hv : (m.logical j + a).In m'.size := by
    obtain ⟨u1, u2, u3, u4⟩ := hu
    rw [hs]
    refine ⟨?_, ?_, ?_, ?_⟩ <;> simp only [Idx.add_x, Idx.add_y] <;> omega
  have hi := bufferIdx_in hv h1.start
  have hlog : m'.logical (bufferIdx (m.logical j + a) m'.size m'.startIndex) = m.logical j + a := by
    rw [logical_eq_unwrap hi, unwrap_buffer hv h1.start]
  refine ⟨_, hi, hlog, (h9 l hl _ hi).1 j ⟨hj, ?_⟩⟩
  rw [hlog]
  ext <;> simp

/-- C77. A map on the grid of the old map is on the grid of the new one, so that `C76_merges_cell_by_cell` applies after
the extension. -/
theorem C77_still_on_grid {m m' other : CostMap K} {k k' : Idx} {t t' : K} (h : OnGrid t m' m k)
    (h' : OnGrid t' m other k') : OnGrid (t + t') m' other (k + k') := by
  have hr : m'.resolution = m.resolution := h.res.symm
  have x := h.x; have y := h.y; have x' := h'.x; have y' := h'.y
  rw [hr] at x y
  refine ⟨h'.res.trans h.res, ?_, ?_⟩
  · rw [hr, Idx.add_x]
    push_cast
    rw [abs_le] at x x' ⊢
    rw [add_mul]
    constructor <;> linarith
  · rw [hr, Idx.add_y]
    push_cast
    rw [abs_le] at y y' ⊢
    rw [add_mul]
    constructor <;> linarith

/-- C77. `addDataFrom` with extension is the extension followed by a merge without extension, also in floating point. -/
theorem C77_extension_then_merge (rd : K → K) (m other : CostMap K) (overwrite all : Bool) (ls : List String) :
    addDataFromRd rd other true overwrite all ls m =
      Act.bind (extendToIncludeRd rd other) (fun _ => addDataFromRd rd other false overwrite all ls) m := rfl

namespace Demo

/-- A map of `n` x `n` cells of 0.1 around `(c / 20, 0)` in `double` arithmetic, its only layer `v` everywhere. -/
def dm (n : Nat) (c : ℚ) (v : Cost) : CostMap ℚ :=
  let m1 := (CostMap.setGeometryRd toDouble ⟨toDouble (n / 10), toDouble (n / 10)⟩ (toDouble (1 / 10))
    ⟨toDouble (c / 20), 0⟩ (CostMap.new [])).2
  (CostMap.add "a" (Mat.const n n v) m1).2

theorem dm_coherent (n : Nat) (c : ℚ) (v : Cost) : (dm n c v).Coherent := by
  have h0 : (CostMap.new [] : CostMap ℚ).Coherent := CostMap.new_coherent (by simp)
  exact CostMap.add_coherent _ _ _ (setGeometryRd_coherent toDouble_precision _ _ _ _ h0)

theorem dm_zero : (dm 5 0 7).GeoRd toDouble ∧ (dm 5 0 7).Tame43 ∧ (dm 5 0 7).Within 100 (dm 5 0 7).resolution :=
  ⟨⟨by decide +kernel, by decide +kernel, by decide +kernel, by decide +kernel, by decide +kernel, by decide +kernel⟩,
    ⟨by decide +kernel, by decide +kernel⟩, ⟨by decide +kernel, by decide +kernel⟩⟩

theorem dm_four : (dm 5 4 9).GeoRd toDouble ∧ (dm 5 4 9).Tame43 ∧ (dm 5 4 9).Within 100 (dm 5 0 7).resolution ∧
    OnGrid ((dm 5 0 7).resolution / 4) (dm 5 0 7) (dm 5 4 9) ⟨2, 0⟩ ∧ GrowsBy (dm 5 0 7) (dm 5 4 9) ⟨2, 0⟩ ⟨0, 0⟩ :=
  ⟨⟨by decide +kernel, by decide +kernel, by decide +kernel, by decide +kernel, by decide +kernel, by decide +kernel⟩,
    ⟨by decide +kernel, by decide +kernel⟩, ⟨by decide +kernel, by decide +kernel⟩,
    ⟨by decide +kernel, by decide +kernel, by decide +kernel⟩,
    ⟨by decide +kernel, by decide +kernel, by decide +kernel, by decide +kernel⟩⟩

end Demo

/-- D31. C77 is false of the code when the map has to grow downwards: a map of 5 x 5 cells of 0.1 around the origin is
extended to include one of the same size around (-0.6, 0), on the same grid. It gets the six missing rows, but two of them
above: it covers [-0.65, 0.45] instead of [-0.85, 0.25], and the position (-0.8, 0) of the other map is outside. The merge
reports success and loses the cost. -/
theorem C77_false_downwards :
    (Demo.dm 5 0 7).GeoRd toDouble ∧ (Demo.dm 5 0 7).Tame43 ∧
    OnGrid ((Demo.dm 5 0 7).resolution / 1024) (Demo.dm 5 0 7) (Demo.dm 5 (-12) 9) ⟨-6, 0⟩ ∧
    (Demo.dm 5 (-12) 9).isInsideRd toDouble ⟨-8 / 10, 0⟩ = true ∧
    ∃ m', addDataFromRd toDouble (Demo.dm 5 (-12) 9) true true true [] (Demo.dm 5 0 7) = (.ok true, m') ∧
      m'.size = ⟨11, 5⟩ ∧ |m'.position.x - -1 / 10| ≤ 1 / 1000 ∧ m'.isInsideRd toDouble ⟨-8 / 10, 0⟩ = false :=
  ⟨Demo.dm_zero.1, Demo.dm_zero.2.1, ⟨by decide +kernel, by decide +kernel, by decide +kernel⟩, by decide +kernel, _,
    Prod.ext (by decide +kernel) rfl, by decide +kernel, by decide +kernel, by decide +kernel⟩

/-- D31. C77 is false of the code when the map has to grow by an odd number of cells: the same map and one of the same size
around (0.1, 0). It gets one more row, below instead of above. -/
theorem C77_false_odd :
    OnGrid ((Demo.dm 5 0 7).resolution / 1024) (Demo.dm 5 0 7) (Demo.dm 5 2 9) ⟨1, 0⟩ ∧
    (Demo.dm 5 2 9).isInsideRd toDouble ⟨3 / 10, 0⟩ = true ∧
    ∃ m', addDataFromRd toDouble (Demo.dm 5 2 9) true true true [] (Demo.dm 5 0 7) = (.ok true, m') ∧
      m'.size = ⟨6, 5⟩ ∧ |m'.position.x - -1 / 20| ≤ 1 / 1000 ∧ m'.isInsideRd toDouble ⟨3 / 10, 0⟩ = false :=
  ⟨⟨by decide +kernel, by decide +kernel, by decide +kernel⟩, by decide +kernel, _,
    Prod.ext (by decide +kernel) rfl, by decide +kernel, by decide +kernel, by decide +kernel⟩

/-- Position (0.3, 0.1) is a cell centre of a map around (0.2, 0): in the interior of its cell. -/
example : (Demo.dm 5 4 9).isInsideRd toDouble ⟨31 / 100, 11 / 100⟩ = true ∧
    (Demo.dm 5 4 9).getIndexRd toDouble ⟨31 / 100, 11 / 100⟩ = (⟨1, 1⟩, true) :=
  C74_interior_of_cell C73_double Demo.dm_four.1 ⟨by decide +kernel, by decide +kernel⟩ (by decide +kernel)
    (by decide +kernel) (by decide +kernel)

/-- The overlap of two maps that are two cells apart takes the costs of the second. -/
example : ∃ m', addDataFromRd toDouble (Demo.dm 5 4 9) false true true [] (Demo.dm 5 0 7) = (.ok true, m') ∧
    m'.at "a" ⟨2, 4⟩ = .ok 9 ∧ m'.at "a" ⟨3, 4⟩ = .ok 7 := by
  obtain ⟨m', e, -, -, -, -, h⟩ := C76_merges_cell_by_cell C73_double Demo.dm_zero.1 Demo.dm_zero.2.1
    (Demo.dm_coherent 5 0 7) Demo.dm_four.1 Demo.dm_four.2.1 (Demo.dm_coherent 5 4 9) Demo.dm_four.2.2.2.1 true true []
    (Demo.dm 5 4 9).layers rfl (by decide +kernel) (by decide +kernel)
  refine ⟨m', e, ?_, ?_⟩
  · exact (h "a" ⟨2, 4⟩ (by decide +kernel)).1 ⟨4, 4⟩ 9 (by decide +kernel) (Or.inl rfl)
      ⟨by decide +kernel, by decide +kernel⟩ (by decide +kernel) (by decide)
  · rw [((h "a" ⟨3, 4⟩ (by decide +kernel)).2 _).1 (by decide +kernel)]
    · decide +kernel
    · rintro ⟨-, -, j, c, hop, -⟩
      have := ((opposite_iff Demo.dm_four.1.start).mp hop).1.2.1
      revert this
      decide +kernel

/-- Growing by two rows above: the hypotheses hold. -/
example : ∃ m', extendToIncludeRd toDouble (Demo.dm 5 4 9) (Demo.dm 5 0 7) = (.ok true, m') ∧ m'.size = ⟨7, 5⟩ ∧
    CoversUpTo ((Demo.dm 5 0 7).resolution / 8) m' (Demo.dm 5 4 9) := by
  obtain ⟨m', e, hs, -, hc, -⟩ := C77_covers_both_partial C73_double Demo.dm_zero.1 (Demo.dm_coherent 5 0 7)
    (by decide +kernel) (B := 100) (by decide +kernel) Demo.dm_zero.2.2 Demo.dm_four.2.2.1 Demo.dm_four.2.2.2.2
  exact ⟨m', e, hs.trans (by decide +kernel), hc⟩

end CostMapModel

import Verif.Proofs.MemorySlide
import Mathlib.Tactic.IntervalCases
import Mathlib.Tactic.Linarith

/-! C78 for the sliding-window functions: pooling and convolution on arrays that may overlap. -/

namespace Verif.Props

open Verif Verif.Spec Verif.Slide Finset

noncomputable section

/-- **C78** for `avg_pool`, unless the destination begins inside the source (so in place it is right): the
average of each window of the source as it was before the call, and nothing else changes. -/
theorem C78_avg_pool_partial (g : Geom) (hg : g.Fits) (hp : g.Pool) (dst src : Nat) (m : List ℝ)
    (hd : dst + g.rows * g.cols * g.src.c ≤ m.length) (hs : src + g.src.h * g.src.w * g.src.c ≤ m.length)
    (o : InPlace dst src (g.src.h * g.src.w * g.src.c)) :
    ∃ m' v, Mem.avgPool dst src g.src ⟨g.kh, g.kw⟩ ⟨g.sh, g.sw⟩ m = .ok m' ∧
      Stored m m' dst (g.rows * g.cols * g.src.c) v ∧
      ∀ r c ch, r < g.rows → c < g.cols → ch < g.src.c →
        v ((r * g.cols + c) * g.src.c + ch)
          = (∑ a ∈ range g.kh, ∑ b ∈ range g.kw, cell m src (windowCell g r c a b ch)) / (g.kh * g.kw) := by
  obtain ⟨m', h1, h2⟩ := Mem.avgPool_stored hg hp hd hs o
  refine ⟨m', _, h1, h2, fun r c ch hr hc hch => ?_⟩
  obtain ⟨e1, e2, e3⟩ := out_dm (r := r) hc hch
  simp only [e1, e2, e3]
  push_cast
  rfl

/-- **C78** for `max_pool`, unless the destination begins inside the source (so in place it is right): the
maximum of each window of the source as it was before the call, and nothing else changes. -/
theorem C78_max_pool_partial (g : Geom) (hg : g.Fits) (hp : g.Pool) (dst src : Nat) (m : List ℝ)
    (hd : dst + g.rows * g.cols * g.src.c ≤ m.length) (hs : src + g.src.h * g.src.w * g.src.c ≤ m.length)
    (o : InPlace dst src (g.src.h * g.src.w * g.src.c)) :
    ∃ m' v, Mem.maxPool dst src g.src ⟨g.kh, g.kw⟩ ⟨g.sh, g.sw⟩ m = .ok m' ∧
      Stored m m' dst (g.rows * g.cols * g.src.c) v ∧
      ∀ r c ch, r < g.rows → c < g.cols → ch < g.src.c →
        (∃ a b, a < g.kh ∧ b < g.kw ∧ v ((r * g.cols + c) * g.src.c + ch) = cell m src (windowCell g r c a b ch)) ∧
        ∀ a b, a < g.kh → b < g.kw →
          cell m src (windowCell g r c a b ch) ≤ v ((r * g.cols + c) * g.src.c + ch) := by
  obtain ⟨m', h1, h2⟩ := Mem.maxPool_stored hg hp hd hs o
  refine ⟨m', _, h1, h2, fun r c ch hr hc hch => ?_⟩
  obtain ⟨e1, e2, e3⟩ := out_dm (r := r) hc hch
  simp only [e1, e2, e3]
  obtain ⟨⟨i, hi, ei⟩, hle⟩ := runMax_spec (fun ki => cell m src (cellNo g r c ch ki))
    (n := g.kh * g.kw) (Nat.mul_pos hg.kh_pos hg.kw_pos)
  refine ⟨⟨i / g.kw, i % g.kw, (ki_bounds hi).1, (ki_bounds hi).2, ei⟩, fun a b ha hb => ?_⟩
  have h3 := hle (a * g.kw + b) (rowmajor_lt ha hb)
  have h4 : (a * g.kw + b) / g.kw = a := by
    rw [Nat.mul_comm, Nat.mul_add_div (by omega), Nat.div_eq_of_lt hb, Nat.add_zero]
  have h5 : (a * g.kw + b) % g.kw = b := by rw [Nat.mul_comm, Nat.mul_add_mod, Nat.mod_eq_of_lt hb]
  unfold cellNo at h3
  rw [h4, h5] at h3
  exact h3

/-- **C78** for `cross_correlation` with the destination apart from the kernels and from the source; with one
filter and no padding the destination may also begin before the source or be the source. -/
theorem C78_cross_correlation_partial (g : Geom) (hg : g.Fits) (nf dst src k : Nat) (m : List ℝ)
    (hd : dst + g.rows * g.cols * nf ≤ m.length) (hs : src + g.src.h * g.src.w * g.src.c ≤ m.length)
    (hk : k + g.kh * g.kw * g.src.c * nf ≤ m.length)
    (ok : NoOverlap dst (g.rows * g.cols * nf) k (g.kh * g.kw * g.src.c * nf))
    (o : NoOverlap dst (g.rows * g.cols * nf) src (g.src.h * g.src.w * g.src.c) ∨
      (nf = 1 ∧ g.Pool ∧ InPlace dst src (g.src.h * g.src.w * g.src.c))) :
    ∃ m' v, Mem.crossCorrelation dst src g.src k ⟨g.kh, g.kw⟩ nf ⟨g.sh, g.sw⟩ ⟨g.ph, g.pw⟩ m = .ok m' ∧
      Stored m m' dst (g.rows * g.cols * nf) v ∧
      ∀ r c f, r < g.rows → c < g.cols → f < nf →
        v ((r * g.cols + c) * nf + f) = corr g nf (cell m src) (cell m k) r c f := by
  obtain ⟨m', h1, h2⟩ := Mem.crossCorrelation_stored hg hd hs hk ok o
  refine ⟨m', _, h1, h2, fun r c f hr hc hf => ?_⟩
  obtain ⟨e1, e2, e3⟩ := out_dm (r := r) hc hf
  simp only [e1, e2, e3]

/-- A 2×2 source pooled in place with windows of 1×2. -/
def inPlacePool : Geom := ⟨⟨2, 2, 1⟩, 1, 2, 1, 1, 0, 0⟩

theorem inPlacePool_fits : inPlacePool.Fits := by
  constructor <;> decide

/-- Max pooling of the source 1 2 / 4 3 in place gives 2, 4 in its first two cells. -/
example : ∃ m' v, Mem.maxPool 0 0 ⟨2, 2, 1⟩ ⟨1, 2⟩ ⟨1, 1⟩ [1, 2, 4, 3] = .ok m' ∧
    Stored [1, 2, 4, 3] m' 0 2 v ∧ v 0 = 2 ∧ v 1 = 4 := by
  have hr : inPlacePool.rows = 2 := by decide
  have hc : inPlacePool.cols = 1 := by decide
  obtain ⟨m', v, h1, h2, h3⟩ := C78_max_pool_partial inPlacePool inPlacePool_fits ⟨rfl, rfl⟩ 0 0 [1, 2, 4, 3]
    (by rw [hr, hc]; decide) (by decide) (Or.inl (le_refl 0))
  rw [hr, hc] at h2 h3
  refine ⟨m', v, h1, h2, ?_, ?_⟩
  · obtain ⟨⟨a, b, ha, hb, e⟩, hle⟩ := h3 0 0 0 (by omega) (by omega) (by decide)
    have h4 := hle 0 1 (by decide) (by decide)
    have ha : a < 1 := ha
    have hb : b < 2 := hb
    interval_cases a
    interval_cases b <;> simp [windowCell, cellIdx, inPlacePool, cell] at e h4 <;> linarith
  · obtain ⟨⟨a, b, ha, hb, e⟩, hle⟩ := h3 1 0 0 (by omega) (by omega) (by decide)
    have h4 := hle 0 0 (by decide) (by decide)
    have ha : a < 1 := ha
    have hb : b < 2 := hb
    interval_cases a
    interval_cases b <;> simp [windowCell, cellIdx, inPlacePool, cell] at e h4 <;> linarith

/-- A source of one cell, a 1×1 kernel. -/
def oneCell : Geom := ⟨⟨1, 1, 1⟩, 1, 1, 1, 1, 0, 0⟩

/-- **C78 is false** for `cross_correlation` with several filters in place: the first filter overwrites what
the second one reads, without an exception. -/
theorem C78_cross_correlation_refuted : ¬ ∀ (g : Geom), g.Fits → ∀ (nf dst src k : Nat) (m : List ℝ),
    dst + g.rows * g.cols * nf ≤ m.length → src + g.src.h * g.src.w * g.src.c ≤ m.length →
    k + g.kh * g.kw * g.src.c * nf ≤ m.length →
    NoOverlap dst (g.rows * g.cols * nf) k (g.kh * g.kw * g.src.c * nf) →
    (∃ e, Mem.crossCorrelation dst src g.src k ⟨g.kh, g.kw⟩ nf ⟨g.sh, g.sw⟩ ⟨g.ph, g.pw⟩ m = .throw e) ∨
    ∃ m' v, Mem.crossCorrelation dst src g.src k ⟨g.kh, g.kw⟩ nf ⟨g.sh, g.sw⟩ ⟨g.ph, g.pw⟩ m = .ok m' ∧
      Stored m m' dst (g.rows * g.cols * nf) v ∧
      ∀ r c f, r < g.rows → c < g.cols → f < nf →
        v ((r * g.cols + c) * nf + f) = corr g nf (cell m src) (cell m k) r c f := by
  intro h
  have hr : oneCell.rows = 1 := by decide
  have hc : oneCell.cols = 1 := by decide
  have hsl : slideSide 1 1 1 0 = 1 := by decide
  have hrun : Mem.crossCorrelation 0 0 oneCell.src 2 ⟨oneCell.kh, oneCell.kw⟩ 2 ⟨oneCell.sh, oneCell.sw⟩
      ⟨oneCell.ph, oneCell.pw⟩ [1, 0, 2, 1] = .ok [2, 2, 2, 1] := by
    simp [Mem.crossCorrelation, kernelSlide, Mem.conv4dOp, oneCell, hsl, forUp, forFrom, rdI, rd, wr]
  rcases h oneCell (by constructor <;> decide) 2 0 0 2 [1, 0, 2, 1] (by rw [hr, hc]; decide) (by decide) (by decide)
    (by rw [hr, hc]; exact Or.inl (le_refl 2)) with ⟨e, he⟩ | ⟨m', v, h1, h2, h3⟩
  · rw [hrun] at he
    cases he
  · rw [hrun] at h1
    injection h1 with h1
    rw [hr, hc] at h2 h3
    have h4 := h2.2.1 1 (by omega)
    have h5 := h3 0 0 1 (by omega) (by omega) (by omega)
    rw [← h1] at h4
    simp [corr, oneCell, padded, cellIdx, cell] at h4 h5
    linarith

/-- **C78 is false** for pooling if the destination begins inside the source: the results for the first windows
overwrite cells of the following ones, without an exception. -/
theorem C78_pool_refuted : ¬ ∀ (g : Geom), g.Fits → g.Pool → ∀ (dst src : Nat) (m : List ℝ),
    dst + g.rows * g.cols * g.src.c ≤ m.length → src + g.src.h * g.src.w * g.src.c ≤ m.length →
    (∃ e, Mem.maxPool dst src g.src ⟨g.kh, g.kw⟩ ⟨g.sh, g.sw⟩ m = .throw e) ∨
    ∃ m' v, Mem.maxPool dst src g.src ⟨g.kh, g.kw⟩ ⟨g.sh, g.sw⟩ m = .ok m' ∧
      Stored m m' dst (g.rows * g.cols * g.src.c) v ∧
      ∀ r c ch, r < g.rows → c < g.cols → ch < g.src.c → ∃ a b, a < g.kh ∧ b < g.kw ∧
        v ((r * g.cols + c) * g.src.c + ch) = cell m src (windowCell g r c a b ch) := by
  intro h
  let g : Geom := ⟨⟨2, 1, 1⟩, 1, 1, 1, 1, 0, 0⟩
  have hr : g.rows = 2 := by decide
  have hc : g.cols = 1 := by decide
  have hsl : slideSide 1 1 1 0 = 1 := by decide
  have hsl2 : slideSide 2 1 1 0 = 2 := by decide
  have hrun : Mem.maxPool 1 0 g.src ⟨g.kh, g.kw⟩ ⟨g.sh, g.sw⟩ [5, 7, 0] = .ok [5, 5, 5] := by
    simp [Mem.maxPool, kernelSlide, Mem.maxPoolOp, g, hsl, hsl2, forUp, forFrom, rdI, rd, wr]
  rcases h g (by constructor <;> decide) ⟨rfl, rfl⟩ 1 0 [5, 7, 0] (by rw [hr, hc]; decide) (by decide)
    with ⟨e, he⟩ | ⟨m', v, h1, h2, h3⟩
  · rw [hrun] at he
    cases he
  · rw [hrun] at h1
    injection h1 with h1
    rw [hr, hc] at h2 h3
    have h4 := h2.2.1 1 (by decide)
    obtain ⟨a, b, ha, hb, h5⟩ := h3 1 0 0 (by omega) (by omega) (by decide)
    have ha : a < 1 := ha
    have hb : b < 1 := hb
    rw [← h1] at h4
    interval_cases a
    interval_cases b
    simp [g, windowCell, cellIdx, cell] at h4 h5
    linarith

end

end Verif.Props

import Verif.Proofs.MemoryConcat
import Verif.Props.Concat
import Verif.Props.Dense
import Verif.Spec.Memory

/-! C78 for concatenation, separation and the backward pass of dense layers on arrays that may overlap. -/

namespace Verif.Props

open Verif Verif.Spec Verif.Concat Finset

noncomputable section

/-- **C78** for `concatenate` of two cubes, if the destination overlaps neither: each cell of the cubes is
copied to its place, and nothing else changes. -/
theorem C78_concatenate_partial (dst src1 src2 : Nat) (s1 s2 : Shape3) (axis : Nat) (m : List ℝ)
    (hj : Joinable s1 s2 axis) (h1 : src1 + s1.h * s1.w * s1.c ≤ m.length)
    (h2 : src2 + s2.h * s2.w * s2.c ≤ m.length)
    (hd : dst + (joined s1 s2 axis).h * (joined s1 s2 axis).w * (joined s1 s2 axis).c ≤ m.length)
    (o1 : NoOverlap dst ((joined s1 s2 axis).h * (joined s1 s2 axis).w * (joined s1 s2 axis).c)
      src1 (s1.h * s1.w * s1.c))
    (o2 : NoOverlap dst ((joined s1 s2 axis).h * (joined s1 s2 axis).w * (joined s1 s2 axis).c)
      src2 (s2.h * s2.w * s2.c)) :
    ∃ m', Mem.concatenate2 dst src1 s1 src2 s2 axis m = .ok m' ∧ m'.length = m.length ∧
      (∀ i j k, InCube s1 i j k →
        m'[dst + cellIdx (joined s1 s2 axis) i j k]? = m[src1 + cellIdx s1 i j k]?) ∧
      (∀ i j k, InCube s2 i j k →
        m'[dst + shiftedIdx (joined s1 s2 axis) axis (dim s1 axis) i j k]? = m[src2 + cellIdx s2 i j k]?) ∧
      ∀ p, p < dst ∨ dst + (joined s1 s2 axis).h * (joined s1 s2 axis).w * (joined s1 s2 axis).c ≤ p →
        m'[p]? = m[p]? := by
  obtain ⟨d, e, _, e1, e2, _⟩ := concatenate2_returns (s1 := s1) (s2 := s2) (axis := axis)
    (dst := Mem.slice m dst (joined s1 s2 axis).size) (src1 := Mem.slice m src1 s1.size)
    (src2 := Mem.slice m src2 s2.size) hj (Mem.slice_length h1).ge (Mem.slice_length h2).ge (Mem.slice_length hd).ge
  obtain ⟨m', a, b⟩ := Mem.concatenate2_sim (Mem.slice_holds h1) (Mem.slice_holds h2)
    (by rw [Mem.slice_length h1]; exact o1) (by rw [Mem.slice_length h2]; exact o2) (Mem.slice_at hd) e
  exact ⟨m', a, b.len, fun i j k h => b.copied_src h1 (cellIdx_lt h) (e1 i j k h),
    fun i j k h => b.copied_src h2 (cellIdx_lt h) (e2 i j k h), b.unchanged⟩

/-- **C78** for `separate` into two cubes, if the source and the destinations do not overlap. -/
theorem C78_separate_partial (dst1 dst2 src : Nat) (s1 s2 : Shape3) (axis : Nat) (m : List ℝ)
    (hj : Joinable s1 s2 axis) (h1 : dst1 + s1.h * s1.w * s1.c ≤ m.length)
    (h2 : dst2 + s2.h * s2.w * s2.c ≤ m.length)
    (hs : src + (joined s1 s2 axis).h * (joined s1 s2 axis).w * (joined s1 s2 axis).c ≤ m.length)
    (o1 : NoOverlap dst1 (s1.h * s1.w * s1.c)
      src ((joined s1 s2 axis).h * (joined s1 s2 axis).w * (joined s1 s2 axis).c))
    (o2 : NoOverlap dst2 (s2.h * s2.w * s2.c)
      src ((joined s1 s2 axis).h * (joined s1 s2 axis).w * (joined s1 s2 axis).c))
    (o3 : NoOverlap dst1 (s1.h * s1.w * s1.c) dst2 (s2.h * s2.w * s2.c)) :
    ∃ m', Mem.separate2 dst1 s1 dst2 s2 src axis m = .ok m' ∧ m'.length = m.length ∧
      (∀ i j k, InCube s1 i j k →
        m'[dst1 + cellIdx s1 i j k]? = m[src + cellIdx (joined s1 s2 axis) i j k]?) ∧
      (∀ i j k, InCube s2 i j k →
        m'[dst2 + cellIdx s2 i j k]? = m[src + shiftedIdx (joined s1 s2 axis) axis (dim s1 axis) i j k]?) ∧
      ∀ p, (p < dst1 ∨ dst1 + s1.h * s1.w * s1.c ≤ p) → (p < dst2 ∨ dst2 + s2.h * s2.w * s2.c ≤ p) →
        m'[p]? = m[p]? := by
  obtain ⟨d, e, l1, l2, e1, e2, _⟩ := separate2_returns (s1 := s1) (s2 := s2) (axis := axis)
    (src := Mem.slice m src (joined s1 s2 axis).size) (dst1 := Mem.slice m dst1 s1.size)
    (dst2 := Mem.slice m dst2 s2.size) hj (Mem.slice_length h1).ge (Mem.slice_length h2).ge (Mem.slice_length hs).ge
  have q1 := Mem.slice_length h1
  have q2 := Mem.slice_length h2
  have q3 := Mem.slice_length hs
  obtain ⟨m1, m', a, b1, b2⟩ := Mem.separate2_sim (Mem.slice_holds hs)
    (d1 := Mem.slice m dst1 s1.size) (d2 := Mem.slice m dst2 s2.size) (dst1 := dst1) (dst2 := dst2)
    (by rw [q3]; exact q1.symm ▸ o1) (by rw [q3]; exact q2.symm ▸ o2)
    (by exact q1.symm ▸ q2.symm ▸ o3) (Mem.slice_at h1).1 (Mem.slice_at h2).1 e
  have r1 : Mem.AtN m dst1 s1.size d.1 m1 := by
    rw [show s1.size = _ from q1.symm]
    exact b1
  have r2 : Mem.AtN m1 dst2 s2.size d.2 m' := by
    rw [show s2.size = _ from q2.symm]
    exact b2
  refine ⟨m', a, by rw [r2.len, r1.len], fun i j k h => ?_, fun i j k h => ?_, fun p p1 p2 => ?_⟩
  · have hc := cellIdx_lt h
    rw [r2.unchanged _ (by rcases o3 with o | o <;> unfold Shape3.size at * <;> omega)]
    exact r1.copied_dst hs hc (e1 i j k h)
  · exact r2.copied_dst hs (cellIdx_lt h) (e2 i j k h)
  · rw [r2.unchanged p p2, r1.unchanged p p1]

/-- **C78** for `concatenate` of any number of cubes stored one after the other, if the destination does not
overlap them. -/
theorem C78_concatenateN_partial (dst src : Nat) (s0 : Shape3) (rest : List Shape3) (axis : Nat) (m : List ℝ)
    (hj : AllJoinable (s0 :: rest) axis) (hs : src + volume (s0 :: rest) ≤ m.length)
    (hd : dst + volume (s0 :: rest) ≤ m.length)
    (o : NoOverlap dst (volume (s0 :: rest)) src (volume (s0 :: rest))) :
    ∃ m', Mem.concatenateN dst src (s0 :: rest) axis m = .ok m' ∧ m'.length = m.length ∧
      (∀ x, (hx : x < (s0 :: rest).length) → ∀ i j k, InCube (s0 :: rest)[x] i j k →
        m'[dst + shiftedIdx (withDim s0 axis (extent (s0 :: rest) axis)) axis
            (extent ((s0 :: rest).take x) axis) i j k]?
          = m[src + (volume ((s0 :: rest).take x) + cellIdx (s0 :: rest)[x] i j k)]?) ∧
      ∀ p, p < dst ∨ dst + volume (s0 :: rest) ≤ p → m'[p]? = m[p]? := by
  obtain ⟨d, e, _, e1, _⟩ := C03_concatenateN_places (Mem.slice m dst (volume (s0 :: rest)))
    (Mem.slice m src (volume (s0 :: rest))) s0 rest axis hj (Mem.slice_length hs).ge (Mem.slice_length hd).ge
  obtain ⟨m', a, b⟩ := Mem.concatenateN_sim (Mem.slice_holds hs) (by rw [Mem.slice_length hs]; exact o)
    (Mem.slice_at hd) e
  exact ⟨m', a, b.len, fun x hx i j k h => b.copied_src hs (Mem.within hx h) (e1 x hx i j k h), b.unchanged⟩

/-- **C78** for `separate` into any number of cubes stored one after the other, if they do not overlap the
source. -/
theorem C78_separateN_partial (dst src : Nat) (s0 : Shape3) (rest : List Shape3) (axis : Nat) (m : List ℝ)
    (hj : AllJoinable (s0 :: rest) axis) (hs : src + volume (s0 :: rest) ≤ m.length)
    (hd : dst + volume (s0 :: rest) ≤ m.length)
    (o : NoOverlap dst (volume (s0 :: rest)) src (volume (s0 :: rest))) :
    ∃ m', Mem.separateN dst (s0 :: rest) src axis m = .ok m' ∧ m'.length = m.length ∧
      (∀ x, (hx : x < (s0 :: rest).length) → ∀ i j k, InCube (s0 :: rest)[x] i j k →
        m'[dst + (volume ((s0 :: rest).take x) + cellIdx (s0 :: rest)[x] i j k)]?
          = m[src + shiftedIdx (withDim s0 axis (extent (s0 :: rest) axis)) axis
            (extent ((s0 :: rest).take x) axis) i j k]?) ∧
      ∀ p, p < dst ∨ dst + volume (s0 :: rest) ≤ p → m'[p]? = m[p]? := by
  have hsz := size_withDim_extent (s0 := s0) hj rfl
  obtain ⟨d, e, _, e1, _⟩ := separateN_returns (s0 := s0) (dst := Mem.slice m dst (volume (s0 :: rest)))
    (src := Mem.slice m src (volume (s0 :: rest))) hj rfl (by rw [hsz]; exact (Mem.slice_length hs).ge)
    (Mem.slice_length hd).ge
  obtain ⟨m', a, b⟩ := Mem.separateN_sim (Mem.slice_holds hs) (by rw [Mem.slice_length hs]; exact o)
    (Mem.slice_at hd) e
  exact ⟨m', a, b.len, fun x hx i j k h => b.copied_dst hs (Mem.within hx h) (e1 x hx i j k h), b.unchanged⟩

/-- The three gradients of a dense layer with `n` inputs and `k` outputs at `ig`, `wg` and `bg`, and an array of
`len` numbers at `p` that overlaps none of them. -/
def Clear (ig wg bg n k p len : Nat) : Prop :=
  NoOverlap ig n p len ∧ NoOverlap wg (k * n) p len ∧ NoOverlap bg k p len

/-- **C78** for `dense_1`, if the gradients it writes overlap neither each other nor what it reads (what it
reads may overlap): gradients of weights and biases grow by the right amounts, the gradients of the inputs
are those of the numbers before the call, and nothing else changes. -/
theorem C78_dense_backward_partial (ig wg bg gr x w n k : Nat) (m : List ℝ)
    (hig : ig + n ≤ m.length) (hwg : wg + k * n ≤ m.length) (hbg : bg + k ≤ m.length)
    (hgr : gr + k ≤ m.length) (hx : x + n ≤ m.length) (hw : w + k * n ≤ m.length)
    (o1 : NoOverlap ig n wg (k * n)) (o2 : NoOverlap ig n bg k) (o3 : NoOverlap wg (k * n) bg k)
    (cg : Clear ig wg bg n k gr k) (cx : Clear ig wg bg n k x n) (cw : Clear ig wg bg n k w (k * n)) :
    ∃ m', Mem.dense1 ig wg bg gr x w n k m = .ok m' ∧ m'.length = m.length ∧
      (∀ i, i < k → cell m' bg i = cell m bg i + cell m gr i) ∧
      (∀ i j, i < k → j < n →
        cell m' wg (i * n + j) = cell m wg (i * n + j) + cell m gr i * cell m x j) ∧
      (∀ j, j < n → cell m' ig j = ∑ i ∈ range k, cell m gr i * cell m w (i * n + j)) ∧
      ∀ p, (p < ig ∨ ig + n ≤ p) → (p < wg ∨ wg + k * n ≤ p) → (p < bg ∨ bg + k ≤ p) → m'[p]? = m[p]? := by
  obtain ⟨s', e, l1, l2, l3, v1, v2, v3⟩ := C05_dense_backward
    ⟨Mem.slice m ig n, Mem.slice m wg (k * n), Mem.slice m bg k⟩ (Mem.slice m gr k) (Mem.slice m x n)
    (Mem.slice m w (k * n)) n k (Mem.slice_length hig) (Mem.slice_length hwg) (Mem.slice_length hbg)
    (Mem.slice_length hgr).ge (Mem.slice_length hx).ge (Mem.slice_length hw).ge
  obtain ⟨m', a, b⟩ := Mem.dense1_sim hig hwg hbg o1 o2 o3 (Mem.slice_holds hgr) (Mem.slice_holds hx)
    (Mem.slice_holds hw) (by rw [Mem.slice_length hgr]; exact cg) (by rw [Mem.slice_length hx]; exact cx)
    (by rw [Mem.slice_length hw]; exact cw)
    (s := ⟨Mem.slice m ig n, Mem.slice m wg (k * n), Mem.slice m bg k⟩)
    ⟨rfl, Mem.slice_holds hig, Mem.slice_holds hwg, Mem.slice_holds hbg, Mem.slice_length hig,
      Mem.slice_length hwg, Mem.slice_length hbg, fun _ _ _ _ => rfl⟩ e
  refine ⟨m', a, b.len, fun i hi => ?_, fun i j hi hj => ?_, fun j hj => ?_, b.rest⟩
  · rw [b.bias.cell (by omega), v1 i hi, Mem.vec_slice hi, Mem.vec_slice hi]
  · have hr := rowmajor_lt hi hj
    have := v2 i j hi hj
    simp only [mat_eq_vec] at this
    rw [b.weight.cell (by omega), this, Mem.vec_slice hr, Mem.vec_slice hi, Mem.vec_slice hj]
  · rw [b.input.cell (by omega), v3 j hj, ordSum_eq_sum, zero_add]
    refine sum_congr rfl fun i hi => ?_
    have hi := mem_range.mp hi
    rw [mat_eq_vec, Mem.vec_slice hi, Mem.vec_slice (rowmajor_lt hi hj)]

/-- A case: two cubes and a destination in one memory. -/
example : ∃ m', Mem.concatenate2 0 4 ⟨2, 1, 1⟩ 6 ⟨2, 1, 1⟩ 2 [0, 0, 0, 0, 1, 2, 3, 4] = .ok m' ∧
    m'[2]? = some 2 ∧ m'[3]? = some 4 := by
  obtain ⟨m', h1, _, h3, h4, _⟩ := C78_concatenate_partial 0 4 6 ⟨2, 1, 1⟩ ⟨2, 1, 1⟩ 2 [0, 0, 0, 0, 1, 2, 3, 4]
    (by decide) (by simp) (by simp) (by simp [joined]) (Or.inl (by simp [joined])) (Or.inl (by simp [joined]))
  exact ⟨m', h1, by simpa [joined, cellIdx] using h3 1 0 0 (by simp [InCube]),
    by simpa [joined, cellIdx, shiftedIdx, dim] using h4 1 0 0 (by simp [InCube])⟩

/-- A case: one input, two outputs. -/
example : ∃ m', Mem.dense1 0 1 3 5 7 8 1 2 [9, 10, 20, 30, 40, 1, 2, 5, 3, 4] = .ok m' ∧
    cell m' 0 0 = 11 ∧ cell m' 3 1 = 42 ∧ cell m' 1 1 = 30 := by
  obtain ⟨m', h1, _, h3, h4, h5, _⟩ := C78_dense_backward_partial 0 1 3 5 7 8 1 2
    [9, 10, 20, 30, 40, 1, 2, 5, 3, 4] (by simp) (by simp) (by simp) (by simp) (by simp) (by simp)
    (Or.inl (by simp)) (Or.inl (by simp)) (Or.inl (by simp)) (by simp [Clear, NoOverlap])
    (by simp [Clear, NoOverlap]) (by simp [Clear, NoOverlap])
  refine ⟨m', h1, ?_, ?_, ?_⟩
  · rw [h5 0 (by omega)]
    simp [sum_range_succ, cell]
    norm_num
  · rw [h3 1 (by omega)]
    simp [cell]
    norm_num
  · have := h4 1 0 (by omega) (by omega)
    simp at this
    rw [this]
    simp [cell]
    norm_num

/-- **C78** fails for `concatenate`, also in place: with the destination over the first cube, the third row is
read after the second was written over it. -/
theorem C78_concatenate_refuted : ¬ ∀ (dst src1 src2 : Nat) (s1 s2 : Shape3) (axis : Nat) (m : List ℝ),
    Joinable s1 s2 axis → src1 + s1.h * s1.w * s1.c ≤ m.length → src2 + s2.h * s2.w * s2.c ≤ m.length →
    dst + (joined s1 s2 axis).h * (joined s1 s2 axis).w * (joined s1 s2 axis).c ≤ m.length →
    (∃ e, Mem.concatenate2 dst src1 s1 src2 s2 axis m = .throw e) ∨
    ∃ m', Mem.concatenate2 dst src1 s1 src2 s2 axis m = .ok m' ∧
      ∀ i j k, InCube s1 i j k →
        m'[dst + cellIdx (joined s1 s2 axis) i j k]? = m[src1 + cellIdx s1 i j k]? := by
  intro h
  have hrun : Mem.concatenate2 0 0 ⟨3, 1, 1⟩ 6 ⟨3, 1, 1⟩ 2 [1, 2, 3, 0, 0, 0, 7, 8, 9]
      = .ok [1, 7, 2, 8, 2, 9, 7, 8, 9] := by
    simp [Mem.concatenate2, Mem.append, checkShapes, offsets, Shape3.get, Shape3.set, Shape3.dims, forUp, forFrom,
      rd, wr]
  rcases h 0 0 6 ⟨3, 1, 1⟩ ⟨3, 1, 1⟩ 2 [1, 2, 3, 0, 0, 0, 7, 8, 9] (by decide) (by simp) (by simp)
    (by simp [joined]) with ⟨e, he⟩ | ⟨m', h1, h2⟩
  · rw [hrun] at he
    cases he
  · rw [hrun] at h1
    injection h1 with h1
    have := h2 2 0 0 (by simp [InCube])
    rw [← h1] at this
    simp [joined, cellIdx] at this

end

end Verif.Props

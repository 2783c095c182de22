import Verif.Proofs.Concat

/-
Properties C01, C02, C03: joining and separating cubes.
-/

namespace Verif.Props
open Verif.Spec Verif.Concat

variable {α : Type}

/-- C01: joining two cubes places every element, stays in the buffers and writes nothing
behind the joined cube. -/
theorem C01_concatenate_places (dst src1 src2 : List α) (s1 s2 : Shape3) (axis : Nat)
    (hj : Joinable s1 s2 axis)
    (h1 : s1.h * s1.w * s1.c ≤ src1.length) (h2 : s2.h * s2.w * s2.c ≤ src2.length)
    (hd : (joined s1 s2 axis).h * (joined s1 s2 axis).w * (joined s1 s2 axis).c ≤ dst.length) :
    ∃ d, concatenate2 dst src1 s1 src2 s2 axis = .ok d ∧ d.length = dst.length ∧
      (∀ i j k, InCube (joined s1 s2 axis) i j k →
        d[cellIdx (joined s1 s2 axis) i j k]? = joinedCell src1 s1 src2 s2 axis i j k) ∧
      (∀ q, (joined s1 s2 axis).h * (joined s1 s2 axis).w * (joined s1 s2 axis).c ≤ q →
        d[q]? = dst[q]?) := by
  obtain ⟨d, hr, hl, hv1, hv2, hf⟩ := concatenate2_returns hj h1 h2 hd
  refine ⟨d, hr, hl, ?_, hf⟩
  intro i j k hc
  obtain ⟨ha, e0, e1, e2⟩ := hj
  obtain ⟨hi, hj, hk⟩ := hc
  rcases axis_cases ha with rfl | rfl | rfl <;> simp [joined] at hi hj hk e0 e1 e2
  · simp only [joinedCell, if_true]
    split
    · next h => exact hv1 i j k ⟨h, hj, hk⟩
    · next h =>
      have := hv2 (i - s1.h) j k ⟨by omega, by omega, by omega⟩
      simp [shiftedIdx, dim, Nat.add_sub_of_le (Nat.le_of_not_lt h)] at this
      exact this
  · simp only [joinedCell, if_true]
    split
    · simp at *
    · split
      · next h => exact hv1 i j k ⟨hi, h, hk⟩
      · next h =>
        have := hv2 i (j - s1.w) k ⟨by omega, by omega, by omega⟩
        simp [shiftedIdx, dim, Nat.add_sub_of_le (Nat.le_of_not_lt h)] at this
        exact this
  · simp only [joinedCell]
    split
    · simp at *
    · split
      · simp at *
      · split
        · next h => exact hv1 i j k ⟨hi, hj, h⟩
        · next h =>
          have := hv2 i j (k - s1.c) ⟨by omega, by omega, by omega⟩
          simp [shiftedIdx, dim, Nat.add_sub_of_le (Nat.le_of_not_lt h)] at this
          exact this

/-- C01: the call throws exactly when the cubes cannot be joined along the axis,
whatever the buffers contain. -/
theorem C01_concatenate_throws_iff (dst src1 src2 : List α) (s1 s2 : Shape3) (axis : Nat) :
    (∃ m, concatenate2 dst src1 s1 src2 s2 axis = .throw m) ↔ ¬ Joinable s1 s2 axis := by
  constructor
  · rintro ⟨m, hm⟩ hj
    unfold concatenate2 at hm
    rw [if_neg (by have := hj.1; omega), checkShapes_ok hj] at hm
    simp only [Exec.bind_ok] at hm
    exact bind_not_throw (fun m => append_not_throw m) (fun _ m => append_not_throw m) m hm
  · intro hj
    unfold concatenate2
    by_cases ha : axis ≥ 3
    · exact ⟨_, by rw [if_pos ha]⟩
    · refine ⟨"concatenate error: shape invalid.", ?_⟩
      rw [if_neg ha, checkShapes_throw (by omega) hj]
      rfl

/-- The hypotheses of C01 are met by a 2×1×2 and a 2×2×2 cube joined along the width. -/
example : ∃ d, concatenate2 (List.replicate 12 0) [1, 2, 3, 4] ⟨2, 1, 2⟩
      [5, 6, 7, 8, 9, 10, 11, 12] ⟨2, 2, 2⟩ 1 = .ok d ∧ d = [1, 2, 5, 6, 7, 8, 3, 4, 9, 10, 11, 12] ∧
      Joinable ⟨2, 1, 2⟩ ⟨2, 2, 2⟩ 1 :=
  ⟨_, rfl, by decide, by decide⟩

/-- C02: separating a joined cube returns the two original cubes. -/
theorem C02_separate_concatenate (dst src1 src2 dst1 dst2 : List α) (s1 s2 : Shape3) (axis : Nat)
    (hj : Joinable s1 s2 axis)
    (h1 : src1.length = s1.h * s1.w * s1.c) (h2 : src2.length = s2.h * s2.w * s2.c)
    (hd1 : dst1.length = src1.length) (hd2 : dst2.length = src2.length)
    (hd : dst.length =
      (joined s1 s2 axis).h * (joined s1 s2 axis).w * (joined s1 s2 axis).c) :
    (do let d ← concatenate2 dst src1 s1 src2 s2 axis
        separate2 dst1 s1 dst2 s2 d axis) = .ok (src1, src2) := by
  obtain ⟨d, hr, hl, hv1, hv2, -⟩ := concatenate2_returns (dst := dst) (src1 := src1)
    (src2 := src2) hj (Nat.le_of_eq h1.symm) (Nat.le_of_eq h2.symm) (Nat.le_of_eq hd.symm)
  rw [hr, Exec.bind_ok]
  obtain ⟨⟨e1, e2⟩, hr', hl1, hl2, hw1, hw2, -, -⟩ := separate2_returns (dst1 := dst1) (dst2 := dst2)
    (src := d) hj (Nat.le_of_eq (h1.symm.trans hd1.symm)) (Nat.le_of_eq (h2.symm.trans hd2.symm))
    (Nat.le_of_eq (hd.symm.trans hl.symm))
  rw [hr']
  have a1 : e1 = src1 := ext_cells (s := s1) (by simp only at hl1; rw [hl1, hd1, h1]; rfl) h1
    (fun i j k hc => (hw1 i j k hc).trans (hv1 i j k hc))
  have a2 : e2 = src2 := ext_cells (s := s2) (by simp only at hl2; rw [hl2, hd2, h2]; rfl) h2
    (fun i j k hc => (hw2 i j k hc).trans (hv2 i j k hc))
  rw [a1, a2]

/-- C02: joining the two parts of a separated cube returns the original cube. -/
theorem C02_concatenate_separate (dst dst1 dst2 src : List α) (s1 s2 : Shape3) (axis : Nat)
    (hj : Joinable s1 s2 axis)
    (hd1 : dst1.length = s1.h * s1.w * s1.c) (hd2 : dst2.length = s2.h * s2.w * s2.c)
    (hs : src.length =
      (joined s1 s2 axis).h * (joined s1 s2 axis).w * (joined s1 s2 axis).c)
    (hd : dst.length = src.length) :
    (do let p ← separate2 dst1 s1 dst2 s2 src axis
        concatenate2 dst p.1 s1 p.2 s2 axis) = .ok src := by
  obtain ⟨⟨e1, e2⟩, hr', hl1, hl2, hw1, hw2, -, -⟩ := separate2_returns (dst1 := dst1) (dst2 := dst2)
    (src := src) hj (Nat.le_of_eq hd1.symm) (Nat.le_of_eq hd2.symm) (Nat.le_of_eq hs.symm)
  rw [hr', Exec.bind_ok]
  simp only at hl1 hl2 hw1 hw2 ⊢
  obtain ⟨d, hr, hl, hv1, hv2, -⟩ := concatenate2_returns (dst := dst) (src1 := e1)
    (src2 := e2) hj (Nat.le_of_eq (hd1.symm.trans hl1.symm))
    (Nat.le_of_eq (hd2.symm.trans hl2.symm)) (Nat.le_of_eq (hs.symm.trans hd.symm))
  rw [hr]
  congr 1
  apply ext_cells (s := joined s1 s2 axis) (by rw [hl, hd, hs]; rfl) hs
  intro i j k hc
  rcases joined_cover hj hc with h | ⟨i', j', k', hc', he⟩
  · rw [hv1 i j k h, hw1 i j k h]
  · rw [he, hv2 i' j' k' hc', hw2 i' j' k' hc']

/-- Non-vacuity of C02 along the channel axis. -/
example : (do let d ← concatenate2 [0, 0, 0, 0, 0, 0] [1, 2] ⟨2, 1, 1⟩ [3, 4, 5, 6] ⟨2, 1, 2⟩ 2
              separate2 [0, 0] ⟨2, 1, 1⟩ [0, 0, 0, 0] ⟨2, 1, 2⟩ d 2)
    = .ok ([1, 2], [3, 4, 5, 6]) := by decide

/-- C03: joining any number of cubes stored one after the other places cube `m` behind
the total extent of the preceding cubes, and writes nothing behind the joined cube. -/
theorem C03_concatenateN_places (dst src : List α) (s0 : Shape3) (rest : List Shape3) (axis : Nat)
    (hj : AllJoinable (s0 :: rest) axis) (hs : volume (s0 :: rest) ≤ src.length)
    (hd : volume (s0 :: rest) ≤ dst.length) :
    ∃ d, concatenateN dst src (s0 :: rest) axis = .ok d ∧ d.length = dst.length ∧
      (∀ m, (hm : m < (s0 :: rest).length) → ∀ i j k, InCube (s0 :: rest)[m] i j k →
        d[shiftedIdx (withDim s0 axis (extent (s0 :: rest) axis)) axis
            (extent ((s0 :: rest).take m) axis) i j k]?
          = src[volume ((s0 :: rest).take m) + cellIdx (s0 :: rest)[m] i j k]?) ∧
      (∀ q, volume (s0 :: rest) ≤ q → d[q]? = dst[q]?) := by
  have hsz := size_withDim_extent (s0 := s0) hj rfl
  obtain ⟨d, h1, h2, h3, h4⟩ := concatenateN_returns (dst := dst) (src := src) hj
    (s0 := s0) rfl hs (by rw [hsz]; exact hd)
  exact ⟨d, h1, h2, h3, by rw [hsz] at h4; exact h4⟩

/-- C03: for a non-empty list of shapes the call throws exactly when some two cubes
cannot be joined. -/
theorem C03_concatenateN_throws_iff (dst src : List α) (s0 : Shape3) (rest : List Shape3)
    (axis : Nat) :
    (∃ m, concatenateN dst src (s0 :: rest) axis = .throw m) ↔
      ¬ AllJoinable (s0 :: rest) axis := by
  constructor
  · rintro ⟨m, hm⟩ hj
    exact concatenateN_not_throw hj m hm
  · intro hj
    unfold concatenateN
    by_cases ha : axis ≥ 3
    · exact ⟨_, by rw [if_pos ha]⟩
    · rw [if_neg ha]
      by_contra hne
      apply hj
      apply allJoinable_of_check (by omega)
      intro m hm
      exact hne ⟨m, by rw [hm]; rfl⟩

/-- C03: an empty list of shapes (with a valid axis) reads `src_shapes[0]` of an empty
vector: undefined behaviour. -/
theorem C03_concatenateN_empty_ub (dst src : List α) (axis : Nat) (h : axis < 3) :
    concatenateN dst src [] axis = .ub := by
  unfold concatenateN
  rw [if_neg (by omega)]
  rfl

/-- C03: separating after joining returns the original buffer. -/
theorem C03_separateN_concatenateN (dst dst' src : List α) (s0 : Shape3) (rest : List Shape3)
    (axis : Nat) (hj : AllJoinable (s0 :: rest) axis)
    (hs : src.length = volume (s0 :: rest)) (hd : dst.length = volume (s0 :: rest))
    (hd' : dst'.length = volume (s0 :: rest)) :
    (do let d ← concatenateN dst src (s0 :: rest) axis
        separateN dst' (s0 :: rest) d axis) = .ok src := by
  have hsz := size_withDim_extent (s0 := s0) hj rfl
  obtain ⟨d, h1, h2, h3, -⟩ := concatenateN_returns (dst := dst) (src := src) hj
    (s0 := s0) rfl (by omega) (by omega)
  rw [h1, Exec.bind_ok]
  obtain ⟨e, g1, g2, g3, -⟩ := separateN_returns (dst := dst') (src := d) hj (s0 := s0) rfl
    (by omega) (by omega)
  rw [g1]
  congr 1
  apply List.ext_getElem?
  intro q
  by_cases hq : q < volume (s0 :: rest)
  · obtain ⟨m, hm, ha, hb⟩ := volume_find _ hq
    obtain ⟨i, j, k, hc, he⟩ := cellIdx_surj
      (s := (s0 :: rest)[m]) (q := q - volume ((s0 :: rest).take m)) (by omega)
    have e1 := g3 m hm i j k hc
    have e2 := h3 m hm i j k hc
    rw [he, show volume ((s0 :: rest).take m) + (q - volume ((s0 :: rest).take m)) = q by omega]
      at e1 e2
    rw [e1, e2]
  · rw [List.getElem?_eq_none (by omega), List.getElem?_eq_none (by omega)]

/-- C03: joining after separating returns the original buffer. -/
theorem C03_concatenateN_separateN (dst dst' src : List α) (s0 : Shape3) (rest : List Shape3)
    (axis : Nat) (hj : AllJoinable (s0 :: rest) axis)
    (hs : src.length = volume (s0 :: rest)) (hd : dst.length = volume (s0 :: rest))
    (hd' : dst'.length = volume (s0 :: rest)) :
    (do let d ← separateN dst (s0 :: rest) src axis
        concatenateN dst' d (s0 :: rest) axis) = .ok src := by
  have hsz := size_withDim_extent (s0 := s0) hj rfl
  obtain ⟨e, g1, g2, g3, -⟩ := separateN_returns (dst := dst) (src := src) hj (s0 := s0) rfl
    (by omega) (by omega)
  rw [g1, Exec.bind_ok]
  obtain ⟨d, h1, h2, h3, -⟩ := concatenateN_returns (dst := dst') (src := e) hj
    (s0 := s0) rfl (by omega) (by omega)
  rw [h1]
  congr 1
  apply ext_cells (s := withDim s0 axis (extent (s0 :: rest) axis)) (by omega) (by omega)
  intro i j k hc
  have hco := coord_lt (axis := axis) hc
  rw [dim_withDim _ hj.1] at hco
  obtain ⟨m, hm, ha, hb⟩ := extent_find _ hco
  have hag : Agree (s0 :: rest)[m] (withDim s0 axis (extent (s0 :: rest) axis)) axis :=
    agree_withDim (hj.2 _ (by simp) _ (List.getElem_mem hm))
  obtain ⟨i', j', k', hc', he⟩ := cell_as_shifted hj.1 hag hc ha hb
  rw [he, h3 m hm i' j' k' hc', g3 m hm i' j' k' hc']

/-- Non-vacuity of C03: three cubes of different width. -/
example : AllJoinable [⟨2, 1, 1⟩, ⟨2, 2, 1⟩, ⟨2, 1, 1⟩] 1 ∧
    concatenateN (List.replicate 8 0) [1, 2, 3, 4, 5, 6, 7, 8]
      [⟨2, 1, 1⟩, ⟨2, 2, 1⟩, ⟨2, 1, 1⟩] 1 = .ok [1, 3, 4, 7, 2, 5, 6, 8] := by
  refine ⟨⟨by decide, ?_⟩, by decide⟩
  simp [Joinable]

end Verif.Props

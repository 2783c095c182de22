import Verif.Proofs.ConcatLayer

/-
Property C62: the concatenation layer.
-/

namespace Verif.Props
open Verif.Spec Verif.Concat Verif.ConcatLayer

variable {α : Type} [Zero α]

/-- C62, the part that holds: a layer can be made exactly from a non-empty list of shapes that can be joined
along the axis (otherwise the constructor throws).  Its output has the sum of the extents along the axis, its
input the largest of them, and its buffer has room for the output.
Missing: that the layer computes the concatenation, which is false (below). -/
theorem C62_shapes_partial (shapes : List Shape3) (axis : Nat) :
    (∀ l : Layer α, new shapes axis = .ok l →
      ∃ s0 i o, shapes.head? = some s0 ∧ AllJoinable shapes axis ∧ l.inShapes = [i] ∧ l.outShapes = [o] ∧
        o = withDim s0 axis (extent shapes axis) ∧
        (∃ s ∈ shapes, i = withDim s0 axis (dim s axis) ∧ ∀ t ∈ shapes, dim t axis ≤ dim s axis) ∧
        l.out = List.replicate (o.h * o.w * o.c) 0) ∧
    ((∃ l : Layer α, new shapes axis = .ok l) ↔ shapes ≠ [] ∧ AllJoinable shapes axis) ∧
    ((∃ m, new (α := α) shapes axis = .throw m) ↔ shapes = [] ∨ ¬ AllJoinable shapes axis) := by
  by_cases h : shapes = [] ∨ ¬ AllJoinable shapes axis
  · obtain ⟨m, hm⟩ := new_throw (α := α) h
    refine ⟨fun l hl => ?_, ⟨?_, ?_⟩, ⟨fun _ => h, fun _ => ⟨m, hm⟩⟩⟩
    · rw [hm] at hl; cases hl
    · rintro ⟨l, hl⟩; rw [hm] at hl; cases hl
    · rintro ⟨h1, h2⟩; rcases h with h | h
      · exact absurd h h1
      · exact absurd h2 h
  · rw [not_or, not_not] at h
    obtain ⟨hne, hj⟩ := h
    cases shapes with
    | nil => exact absurd rfl hne
    | cons s0 rest =>
      have hok := new_ok (α := α) hj
      refine ⟨fun l hl => ?_, ⟨fun _ => ⟨hne, hj⟩, fun _ => ⟨_, hok⟩⟩, ⟨?_, ?_⟩⟩
      · rw [hok] at hl
        cases hl
        obtain ⟨s, hs, he⟩ := widest_mem (axis := axis) hne
        exact ⟨s0, _, _, rfl, hj, rfl, rfl, rfl, ⟨s, hs, by rw [he], fun t ht => he ▸ widest_bound ht⟩, rfl⟩
      · rintro ⟨m, hm⟩; rw [hok] at hm; cases hm
      · rintro (h | h)
        · exact absurd h hne
        · exact absurd hj h

/-- The hypotheses can be met: cubes 2×3×1 and 2×3×4 joined along the channels. -/
example : ∃ l : Layer Int, new [⟨2, 3, 1⟩, ⟨2, 3, 4⟩] 2 = .ok l ∧ l.inShapes = [⟨2, 3, 4⟩] ∧ l.outShapes = [⟨2, 3, 5⟩] :=
  ⟨_, rfl, rfl, rfl⟩

/-- C62 is false: whatever (non-empty) cubes that can be joined are declared, and whatever inputs of these
sizes are fed, one per shape, the layer never gets to the end.  With one shape the input is written behind the
output; with more the second call looks for an input shape that has not been stored, and throws. -/
theorem C62_output_refuted (shapes : List Shape3) (axis : Nat) (hpos : ∀ s ∈ shapes, 0 < s.h * s.w * s.c) (l : Layer α)
    (hl : new shapes axis = .ok l) (xs : List (List α))
    (hx : List.Forall₂ (fun (s : Shape3) x => x.length = s.h * s.w * s.c) shapes xs) :
    ∀ l', feed l xs ≠ .ok l' := by
  intro l' hf
  have hlen := hx.length_eq.symm
  obtain ⟨hne, hj⟩ := ((C62_shapes_partial (α := α) shapes axis).2.1).mp ⟨l, hl⟩
  cases shapes with
  | nil => exact hne rfl
  | cons s0 rest =>
    rw [new_ok hj] at hl
    cases hl
    have hs0 : 0 < s0.size := hpos s0 (by simp)
    clear hx
    match xs, hlen with
    | x :: xs, hlen =>
      unfold feed at hf
      obtain ⟨l1, h1, hf⟩ := Exec.bind_eq_ok hf
      rw [forward_first hj.1] at h1
      obtain ⟨out, ho, h1⟩ := Exec.bind_eq_ok h1
      cases h1
      match xs, rest, hlen with
      | [], [], _ =>
        refine append_too_far hj.1 ?_ ?_ (by rw [List.length_replicate]) ?_ _ ho
        · exact withDim_pos hs0 (by simp [extent, dim_pos hs0])
        · simp [widest, dim_pos hs0]
        · rw [dim_withDim _ hj.1]
          simp [extent, widest, dim_pos hs0]
      | y :: ys, rest, _ =>
        unfold feed at hf
        obtain ⟨l2, h2, _⟩ := Exec.bind_eq_ok hf
        rw [forward_second (i := withDim s0 axis (widest (s0 :: rest) axis))
          (o := withDim s0 axis (extent (s0 :: rest) axis)) rfl rfl rfl] at h2
        cases h2

/-- The hypotheses can be met: two cubes of two cells, as they should be joined. -/
example : ∃ l : Layer Int, new [⟨1, 2, 1⟩, ⟨1, 2, 1⟩] 2 = .ok l ∧
    feed l [[1, 2], [3, 4]] = .throw "vector::_M_range_check" := ⟨_, rfl, rfl⟩

example : ∃ l : Layer Int, new [⟨1, 2, 1⟩] 2 = .ok l ∧ feed l [[1, 2]] = .ub := ⟨_, rfl, rfl⟩

/-- C62, what the first call does when there is room: the input is taken for a cube of the input shape and
placed at the end of the first such cube, not at the beginning; the rest of the output is not touched. -/
theorem C62_first_actual (shapes : List Shape3) (axis : Nat) (l : Layer α) (i o : Shape3)
    (hl : new shapes axis = .ok l) (hi : l.inShapes = [i]) (ho : l.outShapes = [o])
    (hroom : 2 * dim i axis ≤ dim o axis) (x : List α) (hx : i.h * i.w * i.c ≤ x.length) :
    ∃ l', forward l x = .ok l' ∧ l'.out.length = o.h * o.w * o.c ∧
      (∀ a b c, InCube i a b c → l'.out[shiftedIdx o axis (dim i axis) a b c]? = x[cellIdx i a b c]?) ∧
      (∀ a b c, InCube o a b c →
        (coord axis a b c < dim i axis ∨ 2 * dim i axis ≤ coord axis a b c) →
        l'.out[cellIdx o a b c]? = some 0) := by
  obtain ⟨hne, hj⟩ := ((C62_shapes_partial (α := α) shapes axis).2.1).mp ⟨l, hl⟩
  cases shapes with
  | nil => exact absurd rfl hne
  | cons s0 rest =>
    rw [new_ok hj] at hl
    cases hl
    cases hi
    cases ho
    rw [dim_withDim _ hj.1, dim_withDim _ hj.1] at hroom
    have hag : Agree (withDim s0 axis (widest (s0 :: rest) axis)) (withDim s0 axis (extent (s0 :: rest) axis)) axis := by
      unfold Agree withDim
      refine ⟨fun h => ?_, fun h => ?_, fun h => ?_⟩ <;> dsimp only <;> rw [if_neg h, if_neg h]
    obtain ⟨d, hd, hlen, hin, hout, -⟩ := append_cube
      (dst := List.replicate (withDim s0 axis (extent (s0 :: rest) axis)).size (0 : α)) (src := x) (base := 0)
      (off := widest (s0 :: rest) axis) hj.1 hag
      (by rw [dim_withDim _ hj.1, dim_withDim _ hj.1]; omega) (by rw [List.length_replicate])
      (by rw [Nat.zero_add]; exact hx)
    rw [dim_withDim _ hj.1] at hd hout
    rw [forward_first hj.1, hd, Exec.bind_ok]
    refine ⟨_, rfl, ?_, ?_, ?_⟩
    · show d.length = _
      rw [hlen, List.length_replicate]
      rfl
    · intro a b c h
      have := hin a b c h
      rw [Nat.zero_add] at this
      rw [dim_withDim _ hj.1]
      exact this
    · intro a b c h hc
      rw [dim_withDim _ hj.1] at hc
      show d[_]? = _
      rw [hout a b c h (by omega), List.getElem?_replicate, if_pos]
      obtain ⟨h1, h2, h3⟩ := h
      exact cellIdx_lt ⟨h1, h2, h3⟩

/-- The hypotheses can be met: three cubes 1×2×1 along the channels; the input lands in the second channel. -/
example : ∃ l l' : Layer Int, new [⟨1, 2, 1⟩, ⟨1, 2, 1⟩, ⟨1, 2, 1⟩] 2 = .ok l ∧ forward l [7, 8] = .ok l' ∧
    l'.out = [0, 7, 0, 0, 8, 0] := ⟨_, _, rfl, rfl, rfl⟩

omit [Zero α] in
/-- C62 is false of setting the input shape as well: no number of calls is enough, whatever the layer and the
shapes. -/
theorem C62_set_input_refuted (l : Layer α) (shapes : List Shape3) : ∀ n, setInputShape n l shapes = none := by
  intro n
  induction n with
  | zero => rfl
  | succ n ih => exact ih

/-- C62: the gradients that the layer hands back are zeros, whatever gradients it is given. -/
theorem C62_backward_actual (shapes : List Shape3) (axis : Nat) (l : Layer α) (hl : new shapes axis = .ok l) (g : List α) :
    ∃ d, backward l g = .ok d ∧ ∀ v ∈ d, v = 0 := by
  obtain ⟨s0, i, o, -, -, hi, -⟩ := (C62_shapes_partial (α := α) shapes axis).1 l hl
  refine ⟨List.replicate i.size 0, ?_, fun v hv => (List.mem_replicate.mp hv).2⟩
  unfold backward
  rw [hi]
  rfl

/-- The hypotheses can be met. -/
example : ∃ l : Layer Int, new [⟨1, 2, 1⟩, ⟨1, 2, 1⟩] 2 = .ok l ∧ backward l [1, 2, 3, 4] = .ok [0, 0] := ⟨_, rfl, rfl⟩

end Verif.Props

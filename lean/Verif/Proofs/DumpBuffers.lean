import Verif.Proofs.DumpFits

/-
The buffers of every layer a program can have are as long as its shapes ask for.
-/

namespace Verif.Dump

open Verif.Js Verif.Text Verif.Slide Verif.Spec

variable {N : Type} [Zero N] [One N] [Sub N] [Div N] [DecidableEq N]

theorem load_buffers {io : NumText N} {l l' : Layer N} {j : Json} (hl : Buffers l) (h : load io l j = .ok l') :
    Buffers l' := by
  unfold load at h
  rw [bind_ok_iff] at h
  obtain ⟨f, hf, h⟩ := h
  obtain ⟨f1, f2, f3, f4, f5⟩ := loadBase_inv hf
  unfold Buffers at hl
  cases ho : l.own <;> simp only [ho] at h hl
  case relu | elu | softmax | tanh | sigmoid | linear | concat =>
    rw [feedforward_inv h]
    unfold Buffers
    simp only [ho]
    exact ⟨by trivial, by trivial, hl.2.2⟩
  case cce =>
    cases h
    unfold Buffers
    simp only [ho]
    exact ⟨hl.1, f3, hl.2.2⟩
  case mse =>
    simp only [bind_ok_iff] at h
    obtain ⟨_, _, _, _, h⟩ := h
    cases h
    exact ⟨hl.1, f3, hl.2.2⟩
  case maxPool | avgPool =>
    simp only [bind_ok_iff] at h
    obtain ⟨l1, h1, g, hg, h⟩ := h
    cases h
    rw [feedforward_inv h1]
    exact ⟨rfl, rfl, hl.2.2⟩
  case dropout =>
    simp only [bind_ok_iff] at h
    obtain ⟨l1, h1, _, _, _, _, h⟩ := h
    cases h
    rw [feedforward_inv h1]
    exact ⟨rfl, rfl, hl.2.2⟩
  case dense w b =>
    rw [bind_ok_iff] at h
    obtain ⟨l1, h1, h⟩ := h
    rw [feedforward_inv h1] at h
    unfold loadDense at h
    simp only [bind_ok_iff] at h
    obtain ⟨o, ho, i, hi, w', hw, b', hb, h⟩ := h
    cases h
    refine ⟨rfl, rfl, ?_⟩
    simp only [parameters, List.map_cons, List.map_nil]
    rw [loadParams_length hw, resize_length, loadParams_length hb, resize_length]
  case conv g w b =>
    rw [bind_ok_iff] at h
    obtain ⟨l1, h1, h⟩ := h
    rw [feedforward_inv h1] at h
    unfold loadConv at h
    simp only [bind_ok_iff] at h
    obtain ⟨k, hk, _, _, nf, hnf, s, hs, p, hp, i, hi, w', hw, b', hb, h⟩ := h
    cases h
    refine ⟨rfl, rfl, ?_⟩
    simp only [parameters, List.map_cons, List.map_nil]
    rw [loadParams_length hw, resize_length, loadParams_length hb, resize_length]
  case rnn r =>
    unfold loadRnn at h
    simp only [bind_ok_iff] at h
    obtain ⟨_, _, a, ha, _, _, hd, hhd, _, _, t, ht, w1, h1, w2, h2, w3, h3, w4, h4, w5, h5, h⟩ := h
    cases h
    refine ⟨?_, ?_, ?_⟩
    · show f.outSize * t = _
      rw [f4]
    · show f.inSize * t = _
      rw [f3]
    · simp only [parameters, List.map_cons, List.map_nil]
      rw [loadParams_length h1, resize_length, loadParams_length h2, resize_length, loadParams_length h3,
        resize_length, loadParams_length h4, resize_length, loadParams_length h5, resize_length]

theorem buffers_setInput {l l' : Layer N} {s : Shape3} (hf : Fits l) (hl : Buffers l) (h : setInput l s = .ok l') :
    Buffers l' := by
  have hf := hf.own
  unfold setInput at h
  dsimp only at h
  unfold Buffers at hl
  cases hown : l.own <;> simp only [hown] at h hf hl
  case concat => cases h
  case relu | elu | softmax | tanh | sigmoid | linear =>
    cases h
    unfold Buffers
    simp only [hown]
    exact ⟨(flat_size _).symm, rfl, hl.2.2⟩
  case dropout =>
    cases h
    unfold Buffers
    simp only [hown]
    exact ⟨by trivial, by trivial, hl.2.2⟩
  case cce | mse =>
    cases h
    unfold Buffers
    simp only [hown]
    exact ⟨hl.1, rfl, hl.2.2⟩
  case maxPool | avgPool =>
    rw [bind_ok_iff] at h
    obtain ⟨o, _, h⟩ := h
    cases h
    unfold Buffers
    simp only [hown]
    exact ⟨by trivial, by trivial, hl.2.2⟩
  case dense w b =>
    rw [bind_ok_iff] at h
    obtain ⟨o, hsz, h⟩ := h
    cases h
    refine ⟨hl.1, rfl, ?_⟩
    simp only [parameters, List.map_cons, List.map_nil]
    rw [resize_length, hf.2, (size0_inv hsz).2]
  case conv g w b =>
    rw [bind_ok_iff] at h
    obtain ⟨o, _, h⟩ := h
    cases h
    refine ⟨rfl, rfl, ?_⟩
    simp only [parameters, List.map_cons, List.map_nil]
    rw [resize_length, hf.2.1]
  case rnn r =>
    cases h
    refine ⟨hl.1, rfl, ?_⟩
    show _ :: l.gradLens.drop 1 = _
    rw [hl.2.2]
    simp only [parameters, List.map_cons, List.map_nil, List.drop_succ_cons, List.drop_zero]
    rw [resize_length]

/-- The invariant of all layers. -/
theorem built_buffers {io : NumText N} {l : Layer N} (h : Built io l) : Buffers l := by
  induction h with
  | @activation own name n ho hn =>
    rcases ho with rfl | ⟨a, rfl⟩ | rfl | rfl | rfl | rfl | ⟨p, rfl⟩ <;>
      exact ⟨(flat_size n).symm, (flat_size n).symm, rfl⟩
  | @loss own name n ho hn =>
    rcases ho with rfl | ⟨a, rfl⟩ <;> exact ⟨rfl, (flat_size n).symm, rfl⟩
  | @dense name i o hi ho =>
    refine ⟨(flat_size o).symm, (flat_size i).symm, ?_⟩
    simp [newDense, parameters]
  | @conv name i g l h hi h1 h2 h3 h4 =>
    unfold newConv at h
    rw [bind_ok_iff] at h
    obtain ⟨o, _, h⟩ := h
    cases h
    exact ⟨rfl, rfl, by simp [parameters]⟩
  | @pool own name i g l hp h hi h1 h2 h3 =>
    unfold newPool at h
    rw [bind_ok_iff] at h
    obtain ⟨o, _, h⟩ := h
    cases h
    rcases hp with rfl | rfl <;> exact ⟨rfl, rfl, rfl⟩
  | @concat name shapes axis l h hw =>
    unfold newConcat at h
    simp only [bind_ok_iff] at h
    obtain ⟨i, _, o, _, h⟩ := h
    cases h
    exact ⟨rfl, rfl, rfl⟩
  | @rnn name i o h t act hi ho hh ht ha hb =>
    refine ⟨?_, ?_, by simp [newRnn, parameters]⟩
    · show o * t = (flat o).size * t
      rw [flat_size]
    · show i * t = (flat i).size * t
      rw [flat_size]
  | @train l own _ hr ih =>
    unfold Buffers at ih ⊢
    dsimp only
    generalize l.own = lo at hr ih
    cases hr with
    | dense h1 h2 => simpa [parameters, h1, h2] using ih
    | conv h1 h2 => simpa [parameters, h1, h2] using ih
    | rnn h1 h2 h3 h4 h5 h6 => simpa [parameters, h1, h2, h3, h4, h5] using ih
  | reshape hb h1 h2 h3 h4 ih => exact buffers_setInput (built_fits hb) ih h1
  | load _ h ih => exact load_buffers ih h

end Verif.Dump

import Verif.Proofs.DumpLoad
import Verif.Proofs.NetLayer

/-
Every layer a program can have is well sized, and the assembly of the theorems about single classes.
-/

namespace Verif.Dump

open Verif.Js Verif.Text Verif.Slide Verif.Spec

variable {N : Type}

theorem bind_ok_iff {α β : Type} {e : Exec α} {f : α → Exec β} {b : β} :
    (e >>= f) = .ok b ↔ ∃ a, e = .ok a ∧ f a = .ok b := by
  constructor
  · exact Exec.bind_eq_ok
  · rintro ⟨a, rfl, h⟩
    exact h

/-! ### What reading gives is a machine number -/

theorem readSize_word (s : List Char) : Word (readSize s) := by
  unfold Word readSize
  dsimp only
  split
  · omega
  · split
    · exact Nat.mod_lt _ (by decide)
    · omega

theorem readInt_range (s : List Char) : -2 ^ 31 ≤ readInt s ∧ readInt s < 2 ^ 31 := by
  unfold readInt
  dsimp only
  split
  · split <;> omega
  · split <;> omega

theorem asSize_word {j : Json} {n : Nat} (h : asSize j = .ok n) : Word n := by
  unfold asSize at h
  rw [bind_ok_iff] at h
  obtain ⟨t, _, h⟩ := h
  cases h
  exact readSize_word t

theorem asInt_range {j : Json} {n : Int} (h : asInt j = .ok n) : -2 ^ 31 ≤ n ∧ n < 2 ^ 31 := by
  unfold asInt at h
  rw [bind_ok_iff] at h
  obtain ⟨t, _, h⟩ := h
  cases h
  exact readInt_range t

theorem loadShapes_word {j : Json} {ss : List Shape3} (h : loadShapes j = .ok ss) : ∀ s ∈ ss, WordShape s := by
  unfold loadShapes at h
  refine forUp_inv (fun (ss : List Shape3) => ∀ s ∈ ss, WordShape s) ?_ (by simp) h
  intro i a b ha hb
  simp only [bind_ok_iff] at hb
  obtain ⟨_, _, _, _, x, hx, _, _, y, hy, _, _, z, hz, hb⟩ := hb
  cases hb
  intro s hs
  rw [List.mem_append, List.mem_singleton] at hs
  rcases hs with hs | rfl
  · exact ha s hs
  · exact ⟨asSize_word hx, asSize_word hy, asSize_word hz⟩

theorem size0_inv {ss : List Shape3} {n : Nat} (h : size0 ss = .ok n) : ss ≠ [] ∧ n = firstSize ss := by
  cases ss with
  | nil => cases h
  | cons s ss => cases h; exact ⟨by simp, rfl⟩

theorem loadBase_inv {type : List Char} {j : Json} {f : Fields} (h : loadBase type j = .ok f) :
    f.inShapes ≠ [] ∧ f.outShapes ≠ [] ∧ f.inSize = firstSize f.inShapes ∧ f.outSize = firstSize f.outShapes ∧
      ∀ s ∈ f.inShapes ++ f.outShapes, WordShape s := by
  have h : loadFields type j = .ok f := by
    unfold loadBase at h
    split at h
    · cases h
    · exact h
  unfold loadFields at h
  simp only [bind_ok_iff] at h
  obtain ⟨_, _, _, _, h⟩ := h
  split at h
  · cases h
  · simp only [bind_ok_iff] at h
    obtain ⟨_, _, _, _, is, h1, isz, h2, _, _, os, h3, osz, h4, h⟩ := h
    cases h
    obtain ⟨a1, a2⟩ := size0_inv h2
    obtain ⟨b1, b2⟩ := size0_inv h4
    refine ⟨a1, b1, a2, b2, fun s hs => ?_⟩
    rcases List.mem_append.mp hs with hs | hs
    · exact loadShapes_word h1 s hs
    · exact loadShapes_word h3 s hs

theorem nestLoad_length (io : NumText N) (j : Json) : ∀ (ds path : List Nat) (off : Nat) (w w' : List N),
    nestLoad io j ds path off w = .ok w' → w'.length = w.length := by
  intro ds
  induction ds with
  | nil =>
    intro path off w w' h
    unfold nestLoad at h
    simp only [bind_ok_iff] at h
    obtain ⟨_, _, _, _, h⟩ := h
    exact wr_length h
  | cons d ds ih =>
    intro path off w w' h
    unfold nestLoad at h
    refine forUp_inv (fun (v : List N) => v.length = w.length) ?_ rfl h
    intro i a b ha hb
    rw [ih _ _ _ _ hb, ha]

theorem loadParams_length [Zero N] {io : NumText N} {j : Json} {k : Key} {pre dims : List Nat} {w w' : List N}
    (h : loadParams io j k pre dims w = .ok w') : w'.length = w.length := by
  unfold loadParams at h
  split at h
  · cases h; rfl
  · simp only [bind_ok_iff] at h
    obtain ⟨_, _, h⟩ := h
    exact nestLoad_length _ _ _ _ _ _ _ h

theorem asSizes_word {j : Json} {ns : List Nat} (h : asSizes j = .ok ns) : ∀ n ∈ ns, Word n := by
  unfold asSizes at h
  split at h
  · refine forUp_inv (fun (ns : List Nat) => ∀ n ∈ ns, Word n) ?_ (by simp) h
    intro i a b ha hb
    simp only [bind_ok_iff] at hb
    obtain ⟨_, _, x, hx, hb⟩ := hb
    cases hb
    intro s hs
    rw [List.mem_append, List.mem_singleton] at hs
    rcases hs with hs | rfl
    · exact ha s hs
    · exact asSize_word hx
  · cases h
  · cases h

theorem vecAt_mem {l : List Nat} {i n : Nat} (h : vecAt l i = .ok n) : n ∈ l := by
  unfold vecAt at h
  split at h
  · cases h
    exact List.mem_of_getElem? ‹_›
  · cases h

theorem loadPair_word {j : Json} {k : Key} {s : Shape2} (h : loadPair j k = .ok s) : Word s.h ∧ Word s.w := by
  unfold loadPair at h
  simp only [bind_ok_iff] at h
  obtain ⟨_, _, _, _, l, hl, a, ha, b, hb, h⟩ := h
  cases h
  exact ⟨asSizes_word hl _ (vecAt_mem ha), asSizes_word hl _ (vecAt_mem hb)⟩

theorem feedforward_inv {l l' : Layer N} {f : Fields} (h : feedforward l f = .ok l') :
    l' = { l with fields := f, outLen := firstSize f.outShapes, inLen := firstSize f.inShapes } := by
  unfold feedforward at h
  simp only [bind_ok_iff] at h
  obtain ⟨o, ho, i, hi, h⟩ := h
  cases h
  rw [(size0_inv ho).2, (size0_inv hi).2]

variable [Zero N] [One N] [Sub N] [Div N] [DecidableEq N]

/-- Whatever JSON a layer is loaded from, if loading returns then the layer is well sized. -/
theorem load_fits {io : NumText N} {l l' : Layer N} {j : Json} (h : load io l j = .ok l') : Fits l' := by
  unfold load at h
  rw [bind_ok_iff] at h
  obtain ⟨f, hf, h⟩ := h
  obtain ⟨f1, f2, f3, f4, f5⟩ := loadBase_inv hf
  have simple : feedforward l f = .ok l' → OwnFits f l'.own → Fits l' := fun h ho => by
    have := feedforward_inv h
    subst this
    exact ⟨f1, f2, f3, f5, ho⟩
  cases ho : l.own <;> simp only [ho] at h
  case relu | elu | softmax | tanh | sigmoid | linear | concat =>
    refine simple h ?_
    rw [feedforward_inv h]
    show OwnFits f l.own
    rw [ho]
    trivial
  case cce =>
    cases h
    exact ⟨f1, f2, f3, f5, trivial⟩
  case mse =>
    simp only [bind_ok_iff] at h
    obtain ⟨_, _, _, _, h⟩ := h
    cases h
    exact ⟨f1, f2, f3, f5, trivial⟩
  case maxPool | avgPool =>
    simp only [bind_ok_iff] at h
    obtain ⟨l1, h1, g, hg, h⟩ := h
    cases h
    rw [feedforward_inv h1]
    unfold loadPool at hg
    simp only [bind_ok_iff] at hg
    obtain ⟨k, hk, s, hs, hg⟩ := hg
    cases hg
    exact ⟨f1, f2, f3, f5, (loadPair_word hk).1, (loadPair_word hk).2, loadPair_word hs⟩
  case dropout =>
    simp only [bind_ok_iff] at h
    obtain ⟨l1, h1, _, _, _, _, h⟩ := h
    cases h
    rw [feedforward_inv h1]
    exact ⟨f1, f2, f3, f5, trivial⟩
  case dense w b =>
    rw [bind_ok_iff] at h
    obtain ⟨l1, h1, h⟩ := h
    rw [feedforward_inv h1] at h
    unfold loadDense at h
    simp only [bind_ok_iff] at h
    obtain ⟨o, ho, i, hi, w', hw, b', hb, h⟩ := h
    cases h
    refine ⟨f1, f2, f3, f5, ?_, ?_⟩
    · rw [loadParams_length hw, resize_length, (size0_inv ho).2, (size0_inv hi).2]
    · rw [loadParams_length hb, resize_length, (size0_inv ho).2]
  case conv g w b =>
    rw [bind_ok_iff] at h
    obtain ⟨l1, h1, h⟩ := h
    rw [feedforward_inv h1] at h
    unfold loadConv at h
    simp only [bind_ok_iff] at h
    obtain ⟨k, hk, _, _, nf, hnf, s, hs, p, hp, i, hi, w', hw, b', hb, h⟩ := h
    cases h
    refine ⟨f1, f2, f3, f5, ?_, ?_, (loadPair_word hk).1, (loadPair_word hk).2, asSize_word hnf,
      (loadPair_word hs).1, (loadPair_word hs).2, loadPair_word hp⟩
    · intro s' hs'
      rw [loadParams_length hw, resize_length]
      unfold shape0 at hi
      split at hi
      · rename_i s'' r e
        cases hi
        change s' ∈ f.inShapes.head? at hs'
        change f.inShapes = _ at e
        rw [e] at hs'
        cases hs'
        rfl
      · cases hi
    · rw [loadParams_length hb, resize_length]
  case rnn r =>
    unfold loadRnn at h
    simp only [bind_ok_iff] at h
    obtain ⟨_, _, a, ha, _, _, hd, hhd, _, _, t, ht, w1, h1, w2, h2, w3, h3, w4, h4, w5, h5, h⟩ := h
    cases h
    refine ⟨f1, f2, f3, f5, f4, ?_, ?_, ?_, ?_, ?_, (asInt_range ha).1, (asInt_range ha).2, asSize_word hhd,
      asSize_word ht, ?_⟩
    · rw [loadParams_length h1, resize_length]
    · rw [loadParams_length h2, resize_length]
    · rw [loadParams_length h3, resize_length]
    · rw [loadParams_length h4, resize_length]
    · rw [loadParams_length h5, resize_length]
    · rw [resize_length]

theorem flat_size (n : Nat) : (flat n).size = n := by
  unfold flat Shape3.size
  simp

theorem flat_word {n : Nat} (h : Word n) : WordShape (flat n) := ⟨h, by show 1 < _; decide, by show 1 < _; decide⟩

theorem zero_word : Word 0 := by show 0 < _; decide

theorem two_words {a b : Shape3} (ha : WordShape a) (hb : WordShape b) : ∀ s ∈ [a] ++ [b], WordShape s := by
  intro s hs
  simp only [List.cons_append, List.nil_append, List.mem_cons, List.not_mem_nil, or_false] at hs
  rcases hs with rfl | rfl <;> assumption

theorem fits_setInput {l l' : Layer N} {s : Shape3} (hl : Fits l) (h : setInput l s = .ok l') (hs : WordShape s)
    (hz : Word s.size) (ho : ∀ s ∈ l'.fields.outShapes, WordShape s) : Fits l' := by
  have hin : ∀ t ∈ [s], WordShape t := by simpa using hs
  have hf := hl.own
  unfold setInput at h
  dsimp only at h
  cases hown : l.own <;> simp only [hown] at h hf
  case concat => cases h
  case relu | elu | softmax | tanh | sigmoid | linear | dropout | cce | mse =>
    cases h
    refine ⟨by simp, ?_, rfl, ?_, ?_⟩
    · first
      | exact hl.outputs
      | simp
    · intro t ht
      rcases List.mem_append.mp ht with ht | ht
      · exact hin t ht
      · exact ho t ht
    · first
      | trivial
      | (show OwnFits _ l.own
         rw [hown]
         trivial)
  case maxPool | avgPool =>
    rw [bind_ok_iff] at h
    obtain ⟨o, _, h⟩ := h
    cases h
    refine ⟨by simp, by simp, rfl, ?_, ?_⟩
    · intro t ht
      rcases List.mem_append.mp ht with ht | ht
      · exact hin t ht
      · exact ho t ht
    · first
      | exact hf
      | (show OwnFits _ l.own
         rw [hown]
         exact hf)
  case dense w b =>
    rw [bind_ok_iff] at h
    obtain ⟨o, hsz, h⟩ := h
    cases h
    refine ⟨by simp, hl.outputs, rfl, ?_, ?_, hf.2⟩
    · intro t ht
      rcases List.mem_append.mp ht with ht | ht
      · exact hin t ht
      · exact ho t ht
    · rw [resize_length, (size0_inv hsz).2]
      rfl
  case conv g w b =>
    rw [bind_ok_iff] at h
    obtain ⟨o, _, h⟩ := h
    cases h
    refine ⟨by simp, by simp, rfl, ?_, ?_, hf.2⟩
    · intro t ht
      rcases List.mem_append.mp ht with ht | ht
      · exact hin t ht
      · exact ho t ht
    · intro t ht
      cases ht
      rw [resize_length]
  case rnn r =>
    cases h
    obtain ⟨h0, h1, h2, h3, h4, h5, h6⟩ := hf
    refine ⟨by simp, hl.outputs, rfl, ?_, h0, ?_, h2, h3, h4, h5, h6⟩
    · intro t ht
      rcases List.mem_append.mp ht with ht | ht
      · exact hin t ht
      · exact ho t ht
    · rw [resize_length]

theorem built_fits {io : NumText N} {l : Layer N} (h : Built io l) : Fits l := by
  induction h with
  | @activation own name n ho hn =>
    refine ⟨by simp [newFlat, fieldsOf], by simp [newFlat, fieldsOf], rfl, two_words (flat_word hn) (flat_word hn), ?_⟩
    rcases ho with rfl | ⟨a, rfl⟩ | rfl | rfl | rfl | rfl | ⟨p, rfl⟩ <;> trivial
  | @loss own name n ho hn =>
    refine ⟨by simp [newLoss, fieldsOf], by simp [newLoss, fieldsOf], rfl,
      two_words (flat_word hn) (flat_word zero_word), ?_⟩
    rcases ho with rfl | ⟨a, rfl⟩ <;> trivial
  | @dense name i o hi ho =>
    refine ⟨by simp [newDense, fieldsOf], by simp [newDense, fieldsOf], rfl,
      two_words (flat_word hi) (flat_word ho), ?_, ?_⟩
    · rw [List.length_replicate]
      show _ = (flat o).size * (flat i).size
      rw [flat_size, flat_size]
    · rw [List.length_replicate]
      exact (flat_size o).symm
  | @conv name i g l h hi h1 h2 h3 h4 =>
    unfold newConv at h
    rw [bind_ok_iff] at h
    obtain ⟨o, _, h⟩ := h
    cases h
    refine ⟨by simp [fieldsOf], by simp [fieldsOf], rfl, two_words hi (h4 o (by simp [fieldsOf])), ?_, ?_,
      h1.1, h1.2.1, h1.2.2, h2.1, h2.2.1, h3.1, h3.2.1⟩
    · intro s hs
      cases hs
      rw [List.length_replicate]
    · rw [List.length_replicate]
  | @pool own name i g l hp h hi h1 h2 h3 =>
    unfold newPool at h
    rw [bind_ok_iff] at h
    obtain ⟨o, _, h⟩ := h
    cases h
    refine ⟨by simp [fieldsOf], by simp [fieldsOf], rfl, two_words hi (h3 o (by simp [fieldsOf])), ?_⟩
    rcases hp with rfl | rfl <;> exact ⟨h1.1, h1.2.1, h2.1, h2.2.1⟩
  | @concat name shapes axis l h hw =>
    unfold newConcat at h
    simp only [bind_ok_iff] at h
    obtain ⟨i, _, o, _, h⟩ := h
    cases h
    exact ⟨by simp [fieldsOf], by simp [fieldsOf], rfl, hw, trivial⟩
  | @rnn name i o h t act hi ho hh ht ha hb =>
    refine ⟨by simp [newRnn, fieldsOf], by simp [newRnn, fieldsOf], rfl,
      two_words (flat_word hi) (flat_word ho), rfl, ?_, ?_, ?_, ?_, ?_, ha, hb, hh, ht, ?_⟩
    · rw [List.length_replicate]
      show _ = (flat i).size * h
      rw [flat_size]
    · rw [List.length_replicate]
    · rw [List.length_replicate]
      show _ = h * (flat o).size
      rw [flat_size]
    · rw [List.length_replicate]
    · rw [List.length_replicate]
      exact (flat_size o).symm
    · rw [List.length_replicate]
  | @train l own _ hr ih =>
    have hf := ih.own
    refine ⟨ih.inputs, ih.outputs, ih.inSize, ih.words, ?_⟩
    show OwnFits l.fields own
    generalize l.own = lo at hr hf
    cases hr with
    | dense h1 h2 => exact ⟨h1.trans hf.1, h2.trans hf.2⟩
    | conv h1 h2 => exact ⟨fun s hs => h1.trans (hf.1 s hs), h2.trans hf.2.1, hf.2.2⟩
    | rnn h1 h2 h3 h4 h5 h6 =>
      obtain ⟨g0, g1, g2, g3, g4, g5, g6, g7, g8, g9, g10⟩ := hf
      exact ⟨g0, h1.trans g1, h2.trans g2, h3.trans g3, h4.trans g4, h5.trans g5, g6, g7, g8, g9, h6.trans g10⟩
  | reshape _ h1 h2 h3 h4 ih => exact fits_setInput ih h1 h2 h3 h4
  | load _ h _ => exact load_fits h

/-! ### Assembly -/

theorem firstSize_pos_shape {ss : List Shape3} (h : ss ≠ []) : ∃ s rest, ss = s :: rest := by
  cases ss with
  | nil => exact absurd rfl h
  | cons s rest => exact ⟨s, rest, rfl⟩

/-- The dump of a well-sized layer can be loaded into any layer of the same type, which then is the dumped one. -/
theorem load_dump (io : NumText N) {s t : Layer N} (hs : Fits s) (hn : typeName t.own = typeName s.own) :
    ∃ l, (dump io s >>= load io t) = .ok l ∧ Restored io s l ∧ l.inLen = (match s.own with
      | .rnn r => firstSize s.fields.inShapes * r.steps
      | _ => firstSize s.fields.inShapes) := by
  cases ho : s.own <;> rw [ho] at hn <;> cases hto : t.own <;> rw [hto] at hn <;>
    first
    | (simp [typeName] at hn; done)
    | skip
  case relu.relu | elu.elu | softmax.softmax | tanh.tanh | sigmoid.sigmoid | linear.linear | concat.concat | cce.cce =>
    refine ⟨_, load_bare io hs (by rw [ho]; trivial) (by rw [ho, hto]; try rfl), ⟨?_, rfl, rfl, rfl, ?_, ?_, ?_⟩, rfl⟩
    all_goals
      show _ = _
      rw [ho]
      dsimp only
      rw [hto]
      try rfl
  case mse.mse =>
    exact ⟨_, load_mse io hs ho hto, ⟨by rw [ho]; rfl, rfl, rfl, rfl, by rw [ho]; rfl, by rw [ho]; rfl, by rw [ho]; rfl⟩, rfl⟩
  case dropout.dropout =>
    exact ⟨_, load_dropout io hs ho hto,
      ⟨by rw [ho]; rfl, rfl, rfl, rfl, by rw [ho]; rfl, by rw [ho]; rfl, by rw [ho]; rfl⟩, rfl⟩
  case maxPool.maxPool g g' =>
    exact ⟨_, load_pool io hs (.inl ⟨ho, hto⟩),
      ⟨rfl, rfl, rfl, rfl, rfl, by simp [ho, Spec.rates], by simp [ho, parameters]⟩, rfl⟩
  case avgPool.avgPool =>
    exact ⟨_, load_pool io hs (.inr ⟨ho, hto⟩),
      ⟨rfl, rfl, rfl, rfl, rfl, by simp [ho, Spec.rates], by simp [ho, parameters]⟩, rfl⟩
  case dense.dense =>
    exact ⟨_, load_dense io hs ho hto,
      ⟨by rw [ho]; rfl, rfl, rfl, rfl, by rw [ho]; rfl, by rw [ho]; rfl, by rw [ho]; rfl⟩, rfl⟩
  case conv.conv =>
    obtain ⟨sh, rest, hi⟩ := firstSize_pos_shape hs.inputs
    exact ⟨_, load_conv io hs ho hi hto,
      ⟨by rw [ho]; rfl, rfl, rfl, rfl, by rw [ho]; rfl, by rw [ho]; rfl, by rw [ho]; rfl⟩, rfl⟩
  case rnn.rnn =>
    exact ⟨_, load_rnn io hs ho hto,
      ⟨by rw [ho]; rfl, rfl, rfl, rfl, by rw [ho]; rfl, by rw [ho]; rfl, by rw [ho]; rfl⟩, rfl⟩

/-- The dump of a well-sized layer is a dictionary with the type of the layer. -/
theorem dump_type (io : NumText N) {s : Layer N} (hs : Fits s) :
    ∃ m, dump io s = .ok (.dict m) ∧ mapFind m kType = some (ofString (typeName s.own)) := by
  cases ho : s.own
  case relu | elu | softmax | tanh | sigmoid | linear | concat | cce =>
    exact ⟨_, dump_bare io (by rw [ho]; trivial), by rw [ho]; rfl⟩
  case mse t => exact ⟨_, dump_rate io (y := t) (.inr ho), by rw [ho]; rfl⟩
  case dropout => exact ⟨_, dump_rate io (.inl ho), by rw [ho]; rfl⟩
  case maxPool => exact ⟨_, dump_pool io (.inl ho), by rw [ho]; rfl⟩
  case avgPool => exact ⟨_, dump_pool io (.inr ho), by rw [ho]; rfl⟩
  case dense => exact ⟨_, dump_dense io hs ho, by rw [ho]; rfl⟩
  case conv =>
    obtain ⟨sh, rest, hi⟩ := firstSize_pos_shape hs.inputs
    exact ⟨_, dump_conv io hs ho hi, by rw [ho]; rfl⟩
  case rnn => exact ⟨_, dump_rnn io hs ho, by rw [ho]; rfl⟩

theorem load_other (io : NumText N) {s t : Layer N} (hs : Fits s) (hn : typeName t.own ≠ typeName s.own) :
    (dump io s >>= load io t) = .throw "The current layer do not correspond with loaded type" := by
  obtain ⟨m, h1, h2⟩ := dump_type io hs
  rw [h1, Exec.bind_ok]
  unfold load
  rw [loadBase_other h2 (fun h => hn h.symm)]
  rfl

end Verif.Dump

import Verif.Model.Decimal
import Verif.Proofs.DumpPlain

/-
C69: saving a model to a file and loading it.
-/

namespace Verif.Props

open Verif.Js Verif.Text Verif.Slide Verif.Spec Verif.Dump

variable {N : Type} [Zero N] [One N] [Sub N] [Div N] [DecidableEq N]

/-- C69, proved part: the text that a model with at least one layer writes is accepted by every model whose
layers have the same types in the same order, which then has the name of the saved model, and layers
with the names, shapes, configuration, weights and biases of the saved ones.  The number `k` says how
long the reader must be allowed to work.  Missing: names with quotes, numbers that are not finite, layers
with empty weights. -/
theorem C69_save_load_partial (io : NumText N) {m m' : Model N} (hm : ∀ l ∈ m.layers, Built io l ∧ Writable io l)
    (hname : '"' ∉ m.name) (hne : m.layers ≠ [])
    (ht : m'.layers.map (fun l => typeName l.own) = m.layers.map (fun l => typeName l.own)) :
    ∃ text r k, saveModel io m = .ok text ∧ (∀ n, k ≤ n → loadModel io n m' text = .ok r) ∧
      r.name = m.name ∧ List.Forall₂ (Restored io) m.layers r.layers := by
  have hd : ∀ l ∈ m.layers, dump io l = .ok (saved io l) ∧ Plain (saved io l) ∧ saved io l ≠ .leaf [] .none := by
    intro l hl
    obtain ⟨mm, h1, h2⟩ := plain_dump (built_fits (hm l hl).1) (hm l hl).2
    rw [saved_eq h1]
    exact ⟨h1, h2, by simp⟩
  have hitem := dumpItem_ok (m := m) fun l hl => (hd l hl).1
  have hp : Plain (.dict [(kLayers, listOf (m.layers.map (saved io))), (kName, ofString m.name)]) := by
    refine plain_dict (by simp) (by simp only [List.map_cons, List.map_nil]; decide) ?_
      (by simp only [List.map_cons, List.map_nil]; decide)
    have : Plain (listOf (m.layers.map (saved io))) := by
      refine plain_listOf (by simpa using hne) ?_ ?_
      · intro t h
        obtain ⟨l, hl, rfl⟩ := List.mem_map.mp h
        exact (hd l hl).2.1
      · intro t h
        obtain ⟨l, hl, rfl⟩ := List.mem_map.mp h
        exact (hd l hl).2.2
    simp [this, plain_string hname]
  obtain ⟨⟨k, hk⟩, _⟩ := C53_round_trip_partial hp (by
    rw [print_dict]
    simp)
  obtain ⟨r, h1, h2, h3⟩ := loadItem_ok (m' := m') (io := io) (fun l hl => built_fits (hm l hl).1) ht
  refine ⟨_, r, k, by unfold saveModel; rw [hitem, Exec.bind_ok], ?_, h2, h3⟩
  intro n hn
  unfold loadModel
  rw [hk n hn, Exec.bind_ok, h1]

set_option maxRecDepth 20000 in
/-- C69: a quote in the name makes the file unreadable: reading uses a character that was never read. -/
theorem C69_quote_refuted (io : NumText N) (n : Nat) (m' : Model N) :
    ∃ text, saveModel io ⟨['a', '"', 'b'], [newFlat .relu ['r'] 1]⟩ = .ok text ∧
      loadModel io (n + 12) m' text = .ub := by
  have h1 : dumpItem io ⟨['a', '"', 'b'], [newFlat .relu ['r'] 1]⟩ = .ok (.dict [(kLayers, .list [.dict [
      (kInput, .list [sizesJson [1, 1, 1]]), (kName, ofString ['r']), (kOutput, .list [sizesJson [1, 1, 1]]),
      (kType, ofString ['R', 'e', 'l', 'u'])]]), (kName, ofString ['a', '"', 'b'])]) := rfl
  unfold saveModel
  rw [h1, Exec.bind_ok]
  refine ⟨_, rfl, ?_⟩
  unfold loadModel
  simp only [print_dict, print_list, field, List.map_cons, List.map_nil, sizesJson, ofInt, ofString, leafOf, print_leaf]
  rfl

/-- C69: a model of a dense layer and a Relu layer that meets the conditions, and one it can be loaded into. -/
example :
    let d : Layer ℚ := { (newDense ['a'] 2 1 : Layer ℚ) with own := .dense [1 / 4, -3 / 2] [1 / 8] }
    let m : Model ℚ := ⟨['m'], [d, newFlat .relu ['b'] 1]⟩
    let m' : Model ℚ := ⟨['n'], [newDense [] 5 7, newFlat .relu [] 7]⟩
    (∀ l ∈ m.layers, Built sixDecimals l ∧ Writable sixDecimals l) ∧ '"' ∉ m.name ∧
      m'.layers.map (fun l => typeName l.own) = m.layers.map (fun l => typeName l.own) := by
  refine ⟨?_, by decide, rfl⟩
  intro l hl
  rw [List.mem_cons, List.mem_singleton] at hl
  rcases hl with rfl | rfl
  · refine ⟨.train (.dense ?_ ?_) (.dense rfl rfl), by decide, ?_, ?_⟩
    · show 2 < 2 ^ 64; decide
    · show 1 < 2 ^ 64; decide
    · exact ⟨by decide, by decide⟩
    · exact fun x _ => ⟨_, _, rfl⟩
  · refine ⟨.activation (.inl rfl) ?_, by decide, trivial, ?_⟩
    · show 1 < 2 ^ 64; decide
    · exact fun x _ => ⟨_, _, rfl⟩

end Verif.Props

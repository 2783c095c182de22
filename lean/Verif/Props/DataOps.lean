import Verif.Props.Data
import Verif.Proofs.DataShuffle

/-! C47–C50: operations on datasets. -/

namespace Verif.Props

open Verif.Data Verif.Spec

variable {α : Type}

/-! ### C47: shuffle -/

theorem consistent_of_same {d d' : Dataset α} (h : Consistent d) (hl : d'.data.length = d.data.length)
    (h1 : d'.featureSize = d.featureSize) (h2 : d'.sequenceSize = d.sequenceSize)
    (h3 : d'.datasetSize = d.datasetSize) (h4 : d'.featureAmount = d.featureAmount)
    (h5 : d'.sequenceAmount = d.sequenceAmount) (h6 : d'.labelsIdx = d.labelsIdx)
    (h7 : d'.inputIdx = d.inputIdx) : Consistent d' := by
  have e : d'.size = d.size := h4
  refine ⟨?_, ?_, ?_, ?_, ?_⟩
  · rw [hl, e, h1]; exact h.data
  · rw [h3, hl]; exact h.total
  · rw [e, h5, h2]; exact h.seqs
  · rw [h6, h1]; exact h.labels
  · rw [h7, h6, h1]; exact h.inputs

/-- **C47**: for every permutation the generator gives, the shuffled dataset has the same rows with the
same multiplicities; only the data changes. -/
theorem C47_shuffle [Zero α] {d : Dataset α} (h : Consistent d) (perm : List Nat)
    (hp : perm.Perm (List.range d.size)) :
    ∃ data, d.shuffle perm = .ok { d with data := data } ∧ Consistent { d with data := data } ∧
      (rows { d with data := data }).Perm (rows d) ∧
      ∀ i t, perm[i]? = some t → row { d with data := data } t = row d i := by
  obtain ⟨data, h1, h2, h3⟩ := shuffle_ok h hp
  refine ⟨data, h1, consistent_of_same h h2 rfl rfl rfl rfl rfl rfl rfl, ?_, h3⟩
  have e1 : perm.map (row { d with data := data }) = rows d := by
    have hlen : perm.length = d.size := by rw [hp.length_eq]; simp
    apply List.ext_getElem?
    intro i
    unfold rows
    rw [List.getElem?_map, List.getElem?_map]
    by_cases hi : i < d.size
    · rw [List.getElem?_range hi, List.getElem?_eq_getElem (by omega)]
      simp only [Option.map_some, Option.some.injEq]
      exact h3 i _ (List.getElem?_eq_getElem (by omega))
    · rw [List.getElem?_eq_none (by omega), List.getElem?_eq_none (by simpa using hi)]
      rfl
  rw [← e1]
  exact (hp.symm.map _)

/-- **C47**: inputs stay with their labels. -/
theorem C47_inputs_with_labels [Zero α] {d : Dataset α} (h : Consistent d) (perm : List Nat)
    (hp : perm.Perm (List.range d.size)) :
    ∃ d', d.shuffle perm = .ok d' ∧ d'.size = d.size ∧
      ((List.range d.size).map fun i => (d'.input i, d'.label i)).Perm
        ((List.range d.size).map fun i => (d.input i, d.label i)) := by
  obtain ⟨data, h1, hc, h2, _⟩ := C47_shuffle h perm hp
  refine ⟨_, h1, rfl, ?_⟩
  have key : ∀ e : Dataset α, Consistent e → e.size = d.size → e.inputIdx = d.inputIdx →
      e.labelsIdx = d.labelsIdx →
      ((List.range d.size).map fun i => (e.input i, e.label i))
        = (rows e).map fun r => (Exec.ok (pick d.inputIdx r), Exec.ok (pick d.labelsIdx r)) := by
    intro e he hs hi hl
    unfold rows
    rw [List.map_map, hs]
    apply List.map_congr_left
    intro i hi'
    have : i < e.size := by rw [hs]; simpa using hi'
    rw [input_ok he this, label_ok he this, hi, hl]
    rfl
  rw [key _ hc rfl rfl rfl, key d h rfl rfl rfl]
  exact h2.map _

/-- A non-trivial permutation of three rows. -/
example : ([2, 0, 1] : List Nat).Perm (List.range (ofVec [1, 2, 3, 4, 5, (6 : ℤ)] 2 1 {1}).size) := by
  decide

end Verif.Props

import Verif.Props.DataMat

/-! C50: histories of dataset operations. -/

namespace Verif.Props

open Verif.Data Verif.Spec

/-- One call on a dataset; the result replaces the dataset.  `shuffle` carries the vector drawn by the
generator, `split` the rounding of its products. -/
inductive DataOp
  | shuffle (perm : List Nat)
  | labelIdx (labels : Finset Nat)
  | sequenceSize (s : Nat)
  | normalizeBy (lo hi : ℝ) (cols : List Nat)
  | normalize
  | subdata (a b : Nat)
  | subdataPerc (fl : ℝ → ℝ) (p : ℝ)
  | splitTrain (fl : ℝ → ℝ) (p : ℝ)
  | splitTest (fl : ℝ → ℝ) (p : ℝ)
  | inputs
  | labels
  | concatenate (other : Dataset ℝ) (axis : Nat)

/-- The call. -/
noncomputable def DataOp.call (d : Dataset ℝ) : DataOp → Exec (Dataset ℝ)
  | .shuffle perm => d.shuffle perm
  | .labelIdx ls => .ok (d.setLabels ls)
  | .sequenceSize s => d.setSequenceSize s
  | .normalizeBy lo hi cols => d.normalizeBy lo hi cols
  | .normalize => d.normalize
  | .subdata a b => d.subdata a b
  | .subdataPerc fl p => d.subdataPerc fl p
  | .splitTrain fl p => do
    let r ← d.split fl p
    .ok r.1
  | .splitTest fl p => do
    let r ← d.split fl p
    .ok r.2
  | .inputs => d.inputs
  | .labels => d.labels
  | .concatenate other axis => Data.concatenate d other axis

/-- A history of calls, all of which return. -/
inductive History : Dataset ℝ → List DataOp → Dataset ℝ → Prop
  | done (d : Dataset ℝ) : History d [] d
  | call {d d' e : Dataset ℝ} {op : DataOp} {ops : List DataOp} :
    op.call d = .ok d' → History d' ops e → History d (op :: ops) e

theorem setLabels_consistent {α : Type} {d : Dataset α} (h : Consistent d) (ls : Finset Nat) :
    Consistent (d.setLabels ls) := by
  refine ⟨h.data, h.total, h.seqs, ?_, ?_⟩
  · intro i hi
    exact (mem_keepLabels.mp hi).2
  · intro i
    exact mem_inputsOf

theorem resize_length {α : Type} [Zero α] (l : List α) (n : Nat) : (resize l n).length = n := by
  unfold resize
  rw [List.length_append, List.length_take, List.length_replicate]
  omega

/-- **C50**, `sequence_size(s)`: the rows of the whole sequences that fit are kept. -/
theorem C50_sequence_size {α : Type} [Zero α] {d : Dataset α} (h : Consistent d) {s : Nat} (hs : 0 < s)
    (hn : d.isEmpty = false) :
    ∃ d', d.setSequenceSize s = .ok d' ∧ Consistent d' ∧ d'.sequenceSize = min s d.size ∧
      d'.sequenceAmount = d.size / min s d.size ∧
      rows d' = (rows d).take (d.size / min s d.size * min s d.size) ∧
      d'.featureSize = d.featureSize ∧ d'.labelsIdx = d.labelsIdx := by
  obtain ⟨p1, p2, p3⟩ := nonempty_pos h hn
  have hsz : 0 < d.size := by rw [h.seqs]; exact Nat.mul_pos p1 p2
  have hk : 0 < min s d.size := lt_min hs hsz
  have hle : min s d.size * (d.size / min s d.size) ≤ d.size := Nat.mul_div_le _ _
  have hds : min s d.size * (d.size / min s d.size) * d.featureSize ≤ d.data.length := by
    rw [h.data]; exact Nat.mul_le_mul_right _ hle
  have hdiv : min s d.size * (d.size / min s d.size) * d.featureSize / d.featureSize
      = min s d.size * (d.size / min s d.size) := Nat.mul_div_cancel _ p3
  refine ⟨{ d with
      sequenceSize := min s d.size
      sequenceAmount := d.size / min s d.size
      datasetSize := min s d.size * (d.size / min s d.size) * d.featureSize
      featureAmount := min s d.size * (d.size / min s d.size) * d.featureSize / d.featureSize
      data := resize d.data (min s d.size * (d.size / min s d.size) * d.featureSize) }, ?_, ?_, rfl, rfl, ?_,
      rfl, rfl⟩
  · unfold Dataset.setSequenceSize
    dsimp only
    rw [if_neg (by unfold Dataset.size at hk; omega), if_neg (by omega)]
    rfl
  · refine ⟨?_, ?_, ?_, h.labels, h.inputs⟩
    · change (resize _ _).length = _ / _ * _
      rw [resize_length, hdiv]
    · change _ = (resize _ _).length
      rw [resize_length]
    · change _ / _ = _
      rw [hdiv, Nat.mul_comm]
  · unfold rows
    have e : Dataset.size { d with
      sequenceSize := min s d.size
      sequenceAmount := d.size / min s d.size
      datasetSize := min s d.size * (d.size / min s d.size) * d.featureSize
      featureAmount := min s d.size * (d.size / min s d.size) * d.featureSize / d.featureSize
      data := resize d.data (min s d.size * (d.size / min s d.size) * d.featureSize) }
        = min s d.size * (d.size / min s d.size) := hdiv
    rw [e, ← List.map_take, List.take_range, Nat.mul_comm (d.size / min s d.size), min_eq_left hle]
    apply List.map_congr_left
    intro i hi
    have hi : i < min s d.size * (d.size / min s d.size) := by simpa using hi
    have : (i + 1) * d.featureSize ≤ min s d.size * (d.size / min s d.size) * d.featureSize :=
      Nat.mul_le_mul_right _ hi
    rw [Nat.add_one_mul] at this
    unfold row
    dsimp only
    rw [resize_take hds, List.drop_take, List.take_take, min_eq_left (by omega)]

/-- A loop of loops of writes keeps the length. -/
theorem length_inv {α : Type} {n : Nat} {s s' : List α} {body : Nat → List α → Exec (List α)}
    (hb : ∀ i s s', body i s = .ok s' → s'.length = s.length) (h : forUp n s body = .ok s') :
    s'.length = s.length :=
  forUp_inv (fun t => t.length = s.length) (fun i t t' ht h => (hb i t t' h).trans ht) rfl h

theorem call_consistent {d d' : Dataset ℝ} (h : Consistent d) {op : DataOp}
    (ho : ∀ other axis, op = .concatenate other axis → Consistent other) (hr : op.call d = .ok d') :
    Consistent d' := by
  cases op with
  | shuffle perm =>
    obtain ⟨data, h1, h2⟩ := Exec.bind_eq_ok hr
    cases h2
    refine consistent_of_same h ?_ rfl rfl rfl rfl rfl rfl rfl
    have := length_inv (by
      intro i s s' hs
      obtain ⟨t, _, hs⟩ := Exec.bind_eq_ok hs
      refine length_inv ?_ hs
      intro j u u' hu
      obtain ⟨v, _, hu⟩ := Exec.bind_eq_ok hu
      exact wr_length hu) h1
    rw [this]; simp
  | labelIdx ls => cases hr; exact setLabels_consistent h ls
  | sequenceSize s =>
    change d.setSequenceSize s = _ at hr
    by_cases hs : s = 0
    · subst hs
      unfold Dataset.setSequenceSize at hr
      simp at hr
    by_cases hd : d.isEmpty = false
    · obtain ⟨e, h1, h2, _⟩ := C50_sequence_size h (Nat.pos_of_ne_zero hs) hd
      rw [h1] at hr
      cases hr
      exact h2
    · have hnil : d.data = [] := by
        unfold Dataset.isEmpty at hd
        simpa using hd
      have hl := h.data
      rw [hnil] at hl
      unfold Dataset.setSequenceSize at hr
      dsimp only at hr
      split at hr
      · cases hr
      · rename_i h0
        split at hr
        · cases hr
        · rename_i h1
          exfalso
          have h2 : d.size * d.featureSize = 0 := by rw [← hl]; rfl
          rcases Nat.mul_eq_zero.mp h2 with h3 | h3
          · unfold Dataset.size at h3
            rw [h3] at h0
            simp at h0
          · exact h1 h3
  | normalizeBy lo hi cols =>
    change d.normalizeBy lo hi cols = _ at hr
    unfold Dataset.normalizeBy at hr
    split at hr
    · cases hr
    · obtain ⟨data, h1, h2⟩ := Exec.bind_eq_ok hr
      cases h2
      refine consistent_of_same h ?_ rfl rfl rfl rfl rfl rfl rfl
      refine length_inv ?_ h1
      intro i s s' hs
      refine length_inv ?_ hs
      intro j u u' hu
      obtain ⟨c, _, hu⟩ := Exec.bind_eq_ok hu
      obtain ⟨v, _, hu⟩ := Exec.bind_eq_ok hu
      exact wr_length hu
  | normalize =>
    obtain ⟨m1, _, hr⟩ := Exec.bind_eq_ok hr
    obtain ⟨m2, _, hr⟩ := Exec.bind_eq_ok hr
    obtain ⟨data, h1, h2⟩ := Exec.bind_eq_ok hr
    cases h2
    refine consistent_of_same h ?_ rfl rfl rfl rfl rfl rfl rfl
    refine length_inv ?_ h1
    intro i s s' hs
    refine length_inv ?_ hs
    intro j u u' hu
    obtain ⟨v, _, hu⟩ := Exec.bind_eq_ok hu
    obtain ⟨v, _, hu⟩ := Exec.bind_eq_ok hu
    obtain ⟨v, _, hu⟩ := Exec.bind_eq_ok hu
    exact wr_length hu
  | subdata a b => exact subdata_consistent hr
  | subdataPerc fl p => exact subdata_consistent (show d.subdata 0 _ = _ from hr)
  | splitTrain fl p =>
    obtain ⟨r, h1, h2⟩ := Exec.bind_eq_ok hr
    cases h2
    exact (split_consistent h1).1
  | splitTest fl p =>
    obtain ⟨r, h1, h2⟩ := Exec.bind_eq_ok hr
    cases h2
    exact (split_consistent h1).2
  | inputs =>
    obtain ⟨r, h1, h2⟩ := Exec.bind_eq_ok hr
    cases h2
    exact consistent_ofVec _ _ _ _
  | labels =>
    obtain ⟨r, h1, h2⟩ := Exec.bind_eq_ok hr
    cases h2
    exact consistent_ofVec _ _ _ _
  | concatenate other axis =>
    change Data.concatenate d other axis = _ at hr
    unfold Data.concatenate at hr
    split at hr
    · cases hr; exact ho _ axis rfl
    split at hr
    · cases hr; exact h
    split at hr
    · cases hr
    split at hr
    · cases hr
    · obtain ⟨r, h1, h2⟩ := Exec.bind_eq_ok hr
      cases h2
      exact consistent_ofVec _ _ _ _
where
  subdata_consistent {d d' : Dataset ℝ} {a b : Nat} (hr : d.subdata a b = .ok d') : Consistent d' := by
    unfold Dataset.subdata at hr
    dsimp only at hr
    generalize (if b > d.featureAmount then d.featureAmount else b) = b' at hr
    split at hr
    · cases hr
    · obtain ⟨r, h1, h2⟩ := Exec.bind_eq_ok hr
      cases h2
      exact consistent_ofVec _ _ _ _
  split_consistent {d : Dataset ℝ} {fl : ℝ → ℝ} {p : ℝ} {r : Dataset ℝ × Dataset ℝ}
      (hr : d.split fl p = .ok r) : Consistent r.1 ∧ Consistent r.2 := by
    unfold Dataset.split at hr
    split at hr
    · cases hr
    · obtain ⟨a, h1, hr⟩ := Exec.bind_eq_ok hr
      obtain ⟨b, h2, hr⟩ := Exec.bind_eq_ok hr
      cases hr
      exact ⟨subdata_consistent h1, subdata_consistent h2⟩

/-- **C50**: whatever calls are made, a consistent dataset stays consistent. -/
theorem C50_history {d e : Dataset ℝ} {ops : List DataOp} (h : Consistent d)
    (ho : ∀ other axis, DataOp.concatenate other axis ∈ ops → Consistent other)
    (hr : History d ops e) : Consistent e := by
  induction hr with
  | done d => exact h
  | call hc _ ih =>
    refine ih (call_consistent h ?_ hc) fun other axis hm => ho other axis (by simp [hm])
    rintro other axis rfl
    exact ho other axis (by simp)

/-- The datasets a history can start from. -/
theorem C50_start (v : List ℝ) (fs ss : Nat) (labels : Finset Nat) :
    Consistent (ofVec v fs ss labels) ∧ Consistent (Dataset.empty : Dataset ℝ) :=
  ⟨consistent_ofVec v fs ss labels, by rw [← ofVec_nil 0 0 ∅]; exact consistent_ofVec _ _ _ _⟩

/-- A history of four calls on three rows of two columns. -/
example : ∃ e, History (ofVec [1, 2, 3, 4, 5, (6 : ℝ)] 2 1 {1})
    [.shuffle [2, 0, 1], .labelIdx {0}, .sequenceSize 2, .subdata 0 2] e ∧ e.size = 2 := by
  refine ⟨ofVec [3, 4, 5, 6] 2 2 {0}, ?_, ?_⟩
  · refine .call rfl (.call rfl (.call rfl (.call ?_ (.done _))))
    rfl
  · rfl

end Verif.Props

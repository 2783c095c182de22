import Verif.Spec.Data
import Verif.Proofs.Tab
import Verif.Proofs.NetLayer
import Mathlib.Data.List.Sort
import Mathlib.Tactic.Ring

/-! Lemmas about datasets. -/

namespace Verif.Data

open Verif.Spec

variable {α : Type}

theorem collect_ok {β γ : Type} {f : β → Exec γ} {g : β → γ} {l : List β}
    (h : ∀ x ∈ l, f x = .ok (g x)) : collect f l = .ok (l.map g) := by
  induction l with
  | nil => rfl
  | cons b bs ih =>
    rw [collect, h b (by simp), Exec.bind_ok, ih fun x hx => h x (by simp [hx])]
    rfl

theorem mem_keepLabels {fs i : Nat} {ls : Finset Nat} : i ∈ keepLabels fs ls ↔ i ∈ ls ∧ i < fs := by
  simp [keepLabels]

theorem mem_inputsOf {fs i : Nat} {ls : Finset Nat} : i ∈ inputsOf fs ls ↔ i < fs ∧ i ∉ ls := by
  unfold inputsOf
  have key : ∀ (l : List Nat) (s : Finset Nat),
      i ∈ l.foldl (fun s i => if i ∉ ls then insert i s else s) s ↔ i ∈ s ∨ i ∈ l ∧ i ∉ ls := by
    intro l
    induction l with
    | nil => intro s; simp
    | cons a as ih =>
      intro s
      rw [List.foldl_cons, ih]
      by_cases ha : a ∉ ls
      · rw [if_pos ha]
        constructor
        · rintro (h | h)
          · rcases Finset.mem_insert.mp h with rfl | h
            · exact .inr ⟨by simp, ha⟩
            · exact .inl h
          · exact .inr ⟨by simp [h.1], h.2⟩
        · rintro (h | ⟨h, h'⟩)
          · exact .inl (Finset.mem_insert_of_mem h)
          · rcases List.mem_cons.mp h with rfl | h
            · exact .inl (Finset.mem_insert_self _ _)
            · exact .inr ⟨h, h'⟩
      · rw [if_neg ha]
        constructor
        · rintro (h | h)
          · exact .inl h
          · exact .inr ⟨by simp [h.1], h.2⟩
        · rintro (h | ⟨h, h'⟩)
          · exact .inl h
          · rcases List.mem_cons.mp h with rfl | h
            · exact absurd h' ha
            · exact .inr ⟨h, h'⟩
  rw [key]
  simp

/-- Columns in increasing order. -/
theorem iter_eq {fs : Nat} {s : Finset Nat} (h : ∀ i ∈ s, i < fs) :
    iter s = (List.range fs).filter (· ∈ s) := by
  refine List.Perm.eq_of_pairwise (le := (· ≤ ·)) (fun a b _ _ h1 h2 => Nat.le_antisymm h1 h2)
    (Finset.pairwise_sort s _) ?_ ?_
  · exact (List.pairwise_le_range).filter _
  · refine (List.perm_ext_iff_of_nodup (Finset.sort_nodup s _) ((List.nodup_range).filter _)).mpr ?_
    intro a
    simp only [Finset.mem_sort, List.mem_filter, List.mem_range, decide_eq_true_eq]
    exact ⟨fun ha => ⟨h a ha, ha⟩, fun ha => ha.2⟩

theorem iter_length (s : Finset Nat) : (iter s).length = s.card := Finset.length_sort _

theorem pick_eq [Zero α] (cols : Finset Nat) (r : List α) :
    pick cols r = ((List.range r.length).filter (· ∈ cols)).map (vec r) := by
  have hz : r.zipIdx = (List.range r.length).map fun j => (vec r j, j) := by
    apply List.ext_getElem?
    intro i
    rw [List.getElem?_zipIdx, List.getElem?_map]
    by_cases hi : i < r.length
    · rw [List.getElem?_range hi, getElem?_vec hi]
      simp
    · rw [List.getElem?_eq_none (by omega), List.getElem?_eq_none (by simpa using hi)]
      rfl
  unfold pick
  rw [hz, List.filter_map, List.map_map]
  rfl

theorem row_length {d : Dataset α} (h : Consistent d) {i : Nat} (hi : i < d.size) :
    (row d i).length = d.featureSize := by
  unfold row
  rw [List.length_take, List.length_drop, h.data]
  have : (i + 1) * d.featureSize ≤ d.size * d.featureSize := Nat.mul_le_mul_right _ hi
  rw [Nat.add_one_mul] at this
  omega

theorem row_eq_tab [Zero α] {d : Dataset α} (h : Consistent d) {i : Nat} (hi : i < d.size) :
    row d i = tab d.featureSize fun j => vec d.data (i * d.featureSize + j) := by
  have hl := row_length h hi
  apply List.ext_getElem?
  intro j
  by_cases hj : j < d.featureSize
  · rw [tab_getElem? _ hj]
    unfold row
    rw [List.getElem?_take, if_pos hj, List.getElem?_drop, getElem?_vec]
    have : (i + 1) * d.featureSize ≤ d.size * d.featureSize := Nat.mul_le_mul_right _ hi
    rw [Nat.add_one_mul] at this
    have := h.data
    omega
  · rw [List.getElem?_eq_none (by omega), tab_getElem?_none _ (by omega)]

theorem cell_lt {d : Dataset α} (h : Consistent d) {i j : Nat} (hi : i < d.size)
    (hj : j < d.featureSize) : i * d.featureSize + j < d.data.length := by
  have : (i + 1) * d.featureSize ≤ d.size * d.featureSize := Nat.mul_le_mul_right _ hi
  rw [Nat.add_one_mul] at this
  have := h.data
  omega

theorem entry_ok {d : Dataset α} (h : Consistent d) {i : Nat} (hi : i < d.size) :
    d.entry i = .ok (row d i) := by
  unfold Dataset.entry slice row
  have : (i + 1) * d.featureSize ≤ d.size * d.featureSize := Nat.mul_le_mul_right _ hi
  rw [Nat.add_one_mul] at this
  have := h.data
  rw [if_neg (by unfold Dataset.size at hi; omega), if_pos (by omega)]
  rw [show i * d.featureSize + d.featureSize - i * d.featureSize = d.featureSize by omega]

theorem pick_row [Zero α] {d : Dataset α} (h : Consistent d) {i : Nat} (hi : i < d.size)
    {s : Finset Nat} (hs : ∀ j ∈ s, j < d.featureSize) :
    pick s (row d i) = (iter s).map fun j => vec d.data (i * d.featureSize + j) := by
  rw [pick_eq, row_length h hi, iter_eq hs]
  apply List.map_congr_left
  intro j hj
  have hj' : j < d.featureSize := by simpa using (List.mem_filter.mp hj).1
  rw [row_eq_tab h hi, vec_tab _ hj']

theorem field_ok [Zero α] {d : Dataset α} (h : Consistent d) {i : Nat} (hi : i < d.size)
    {s : Finset Nat} (hs : ∀ j ∈ s, j < d.featureSize) :
    d.fieldFromRow i s = .ok (pick s (row d i)) := by
  unfold Dataset.fieldFromRow
  rw [pick_row h hi hs]
  apply collect_ok
  intro j hj
  have hj' : j ∈ s := by simpa [iter] using hj
  exact rd_vec (cell_lt h hi (hs j hj'))

theorem pick_all {cols : Finset Nat} {r : List α} (h : ∀ j < r.length, j ∈ cols) : pick cols r = r := by
  unfold pick
  rw [List.filter_eq_self.mpr]
  · simp
  · intro p hp
    have := List.snd_lt_of_mem_zipIdx hp
    simpa using h p.2 (by omega)

theorem inputs_all {d : Dataset α} (h : Consistent d) (hc : d.inputIdx.card = d.featureSize) :
    ∀ j < d.featureSize, j ∈ d.inputIdx := by
  have hsub : d.inputIdx ⊆ Finset.range d.featureSize := by
    intro j hj
    exact Finset.mem_range.mpr ((h.inputs j).mp hj).1
  have := Finset.eq_of_subset_of_card_le hsub (by simp [hc])
  intro j hj
  rw [this]
  exact Finset.mem_range.mpr hj

theorem input_ok [Zero α] {d : Dataset α} (h : Consistent d) {i : Nat} (hi : i < d.size) :
    d.input i = .ok (pick d.inputIdx (row d i)) := by
  unfold Dataset.input
  rw [if_neg (by unfold Dataset.size at hi; omega)]
  split
  · rename_i hc
    rw [entry_ok h hi, pick_all]
    rw [row_length h hi]
    exact inputs_all h hc
  · exact field_ok h hi fun j hj => ((h.inputs j).mp hj).1

theorem pick_empty (r : List α) : pick ∅ r = [] := by simp [pick]

theorem label_ok [Zero α] {d : Dataset α} (h : Consistent d) {i : Nat} (hi : i < d.size) :
    d.label i = .ok (pick d.labelsIdx (row d i)) := by
  unfold Dataset.label
  by_cases he : d.labelsIdx = ∅
  · rw [if_pos (.inr he), he, pick_empty]
  · rw [if_neg (by unfold Dataset.size at hi; rintro (h' | h'); omega; exact he h')]
    exact field_ok h hi h.labels

theorem seq_row_lt {d : Dataset α} (h : Consistent d) {s t : Nat} (hs : s < d.sequenceAmount)
    (ht : t < d.sequenceSize) : s * d.sequenceSize + t < d.size := by
  rw [h.seqs]
  have : (s + 1) * d.sequenceSize ≤ d.sequenceAmount * d.sequenceSize := Nat.mul_le_mul_right _ hs
  rw [Nat.add_one_mul] at this
  omega

theorem fieldSeq_ok [Zero α] {d : Dataset α} (h : Consistent d) {q : Nat} (hq : q < d.sequenceAmount)
    {s : Finset Nat} (hs : ∀ j ∈ s, j < d.featureSize) :
    d.fieldFromSeq q s = .ok ((seqRows d q).map (pick s)).flatten := by
  unfold Dataset.fieldFromSeq
  have hc : collect (fun t => collect (fun idx => rd d.data
      (q * d.sequenceSize * d.featureSize + t * d.featureSize + idx)) (iter s))
      (List.range d.sequenceSize) = .ok ((seqRows d q).map (pick s)) := by
    unfold seqRows
    rw [List.map_map]
    apply collect_ok
    intro t ht
    have ht' : t < d.sequenceSize := by simpa using ht
    have hr := field_ok h (seq_row_lt h hq ht') hs
    unfold Dataset.fieldFromRow at hr
    rw [Nat.add_mul] at hr
    exact hr
  rw [hc, Exec.bind_ok]

theorem chunks_flatten (fs : Nat) : ∀ (n : Nat) (l : List α), n * fs ≤ l.length →
    ((List.range n).map fun t => (l.drop (t * fs)).take fs).flatten = l.take (n * fs) := by
  intro n
  induction n with
  | zero => intro l _; simp
  | succ n ih =>
    intro l hl
    rw [Nat.add_one_mul] at hl
    rw [List.range_succ, List.map_append, List.flatten_append, ih l (by omega)]
    simp only [List.map_cons, List.map_nil, List.flatten_cons, List.flatten_nil, List.append_nil]
    rw [Nat.add_one_mul, List.take_add]

theorem entrySeq_ok {d : Dataset α} (h : Consistent d) {q : Nat} (hq : q < d.sequenceAmount) :
    d.entrySeq q = .ok (seqRows d q).flatten := by
  unfold Dataset.entrySeq slice
  have h1 : (q + 1) * d.sequenceSize ≤ d.size := by
    rw [h.seqs]; exact Nat.mul_le_mul_right _ hq
  have h2 : (q + 1) * d.sequenceSize * d.featureSize ≤ d.size * d.featureSize :=
    Nat.mul_le_mul_right _ h1
  rw [Nat.add_one_mul, Nat.add_mul] at h2
  have h3 := h.data
  rw [if_neg (by omega), if_pos (by omega)]
  congr 1
  rw [Nat.add_sub_cancel_left]
  unfold seqRows row
  have := chunks_flatten d.featureSize d.sequenceSize (d.data.drop (q * d.sequenceSize * d.featureSize))
    (by rw [List.length_drop]; omega)
  rw [← this]
  congr 1
  apply List.map_congr_left
  intro t _
  rw [List.drop_drop, Nat.add_mul]

theorem rows_flatten {d : Dataset α} (h : Consistent d) : (rows d).flatten = d.data := by
  have := chunks_flatten d.featureSize d.size d.data (by rw [h.data])
  unfold rows
  rw [← h.data, List.take_length] at this
  exact this

/-! ### The constructor from a vector -/

theorem resize_take [Zero α] {l : List α} {n : Nat} (h : n ≤ l.length) : resize l n = l.take n := by
  unfold resize
  rw [show n - l.length = 0 by omega]
  simp

theorem resize_self [Zero α] (l : List α) : resize l l.length = l := by
  rw [resize_take (Nat.le_refl _), List.take_length]

theorem ofVec_total [Zero α] (l : List α) (fs ss : Nat) (ls : Finset Nat) :
    (ofVec l fs ss ls).datasetSize ≤ l.length := by
  unfold ofVec
  dsimp only
  by_cases h : min fs l.length * min ss (l.length / max (min fs l.length) 1) = 0
  · rw [h]; simp
  · rw [max_eq_left (by omega)]
    exact Nat.div_mul_le_self _ _

theorem consistent_ofVec [Zero α] (l : List α) (fs ss : Nat) (ls : Finset Nat) :
    Consistent (ofVec l fs ss ls) := by
  have ht := ofVec_total l fs ss ls
  have hdl : (ofVec l fs ss ls).data.length = (ofVec l fs ss ls).datasetSize := by
    have : (ofVec l fs ss ls).data = resize l (ofVec l fs ss ls).datasetSize := rfl
    rw [this, resize_take ht, List.length_take]
    omega
  refine ⟨?_, hdl.symm, ?_, ?_, ?_⟩
  · rw [hdl]
    unfold ofVec Dataset.size
    dsimp only
    generalize min fs l.length = f
    generalize min ss (l.length / max f 1) = s
    by_cases hf : f = 0
    · subst hf; simp
    · rw [max_eq_left (show 1 ≤ f by omega)]
      generalize l.length / max (f * s) 1 = q
      rw [show q * (f * s) = f * (q * s) by ring, Nat.mul_div_cancel_left _ (by omega)]
      ring
  · unfold ofVec Dataset.size
    dsimp only
    generalize min fs l.length = f
    generalize min ss (l.length / max f 1) = s
    by_cases hf : f = 0
    · subst hf; simp
    · rw [max_eq_left (show 1 ≤ f by omega)]
      by_cases hs : s = 0
      · subst hs; simp
      · have : 0 < f * s := Nat.mul_pos (by omega) (by omega)
        rw [max_eq_left (show 1 ≤ f * s by omega)]
        generalize l.length / (f * s) = q
        rw [Nat.mul_div_cancel _ this, show q * (f * s) = f * (q * s) by ring,
          Nat.mul_div_cancel_left _ (by omega)]
  · intro i hi
    exact (mem_keepLabels.mp hi).2
  · intro i
    exact mem_inputsOf

/-- The dataset built from whole sequences of rows. -/
theorem ofVec_rows [Zero α] {l : List α} {fs ss m : Nat} (ls : Finset Nat) (hl : l.length = m * ss * fs)
    (hfs : 0 < fs) (hss : 0 < ss) (hm : 0 < m) :
    ofVec l fs ss ls = ⟨l, fs, ss, m * ss * fs, m * ss, m, keepLabels fs ls,
      inputsOf fs (keepLabels fs ls)⟩ := by
  have h1 : min fs l.length = fs := by
    apply min_eq_left
    rw [hl]
    exact Nat.le_mul_of_pos_left _ (Nat.mul_pos hm hss)
  have h2 : min ss (l.length / max fs 1) = ss := by
    apply min_eq_left
    rw [max_eq_left (show 1 ≤ fs by omega), hl, Nat.mul_div_cancel _ hfs]
    exact Nat.le_mul_of_pos_left _ hm
  have h3 : 0 < fs * ss := Nat.mul_pos hfs hss
  have h4 : l.length / max (fs * ss) 1 * (fs * ss) = m * ss * fs := by
    rw [max_eq_left (show 1 ≤ fs * ss by omega), hl, show m * ss * fs = m * (fs * ss) by ring,
      Nat.mul_div_cancel _ h3]
  unfold ofVec
  simp only [h1, h2, h4]
  rw [max_eq_left (show 1 ≤ fs by omega), max_eq_left (show 1 ≤ fs * ss by omega),
    Nat.mul_div_cancel _ hfs, show m * ss * fs = m * (fs * ss) by ring, Nat.mul_div_cancel _ h3]
  rw [show m * (fs * ss) = l.length by rw [hl]; ring, resize_self]

/-- The dataset built from nothing. -/
theorem ofVec_nil [Zero α] (fs ss : Nat) (ls : Finset Nat) :
    ofVec ([] : List α) fs ss ls = Dataset.empty := by
  have h : keepLabels 0 ls = ∅ := by
    ext i; simp [keepLabels]
  simp [ofVec, resize, h, inputsOf, Dataset.empty]

/-- Cutting the concatenation of rows gives the rows. -/
theorem chunks_of_flatten (fs : Nat) : ∀ (L : List (List α)), (∀ r ∈ L, r.length = fs) →
    ∀ n ≤ L.length, (List.range n).map (fun i => (L.flatten.drop (i * fs)).take fs) = L.take n := by
  have key : ∀ (L : List (List α)), (∀ r ∈ L, r.length = fs) → ∀ i,
      ∀ r, L[i]? = some r → (L.flatten.drop (i * fs)).take fs = r := by
    intro L
    induction L with
    | nil => intro _ i r h; simp at h
    | cons a as ih =>
      intro hL i r h
      have ha : a.length = fs := hL a (by simp)
      cases i with
      | zero =>
        simp only [List.getElem?_cons_zero, Option.some.injEq] at h
        subst h
        simp only [Nat.zero_mul, List.drop_zero, List.flatten_cons]
        rw [List.take_append_of_le_length (by omega), ← ha, List.take_length]
      | succ i =>
        simp only [List.getElem?_cons_succ] at h
        rw [← ih (fun r hr => hL r (by simp [hr])) i r h]
        rw [List.flatten_cons, Nat.add_one_mul, Nat.add_comm, ← List.drop_drop, ← ha,
          List.drop_left]
  intro L hL n hn
  apply List.ext_getElem?
  intro i
  rw [List.getElem?_map, List.getElem?_take]
  by_cases hi : i < n
  · rw [List.getElem?_range hi, if_pos hi]
    have : L[i]? = some L[i] := List.getElem?_eq_getElem (by omega)
    rw [this, Option.map_some, key L hL i _ this]
  · rw [List.getElem?_eq_none (by simpa using hi), if_neg hi]
    rfl

theorem length_flatten_rows {fs : Nat} {L : List (List α)} (hL : ∀ r ∈ L, r.length = fs) :
    L.flatten.length = L.length * fs := by
  induction L with
  | nil => simp
  | cons a as ih =>
    rw [List.flatten_cons, List.length_append, ih fun r hr => hL r (by simp [hr]), hL a (by simp),
      List.length_cons, Nat.add_one_mul, Nat.add_comm]

theorem take_flatten_rows {fs : Nat} {L : List (List α)} (hL : ∀ r ∈ L, r.length = fs) (n : Nat)
    (hn : n ≤ L.length) : L.flatten.take (n * fs) = (L.take n).flatten := by
  rw [← chunks_of_flatten fs L hL n hn, chunks_flatten]
  rw [length_flatten_rows hL]
  exact Nat.mul_le_mul_right _ hn

/-- The dataset built from some rows: whole sequences are kept; fewer rows than a sequence make one
short sequence. -/
theorem ofVec_flatten [Zero α] {fs : Nat} {L : List (List α)} (hL : ∀ r ∈ L, r.length = fs)
    (hfs : 0 < fs ∨ L = []) (ss : Nat) (ls : Finset Nat) :
    let k := min ss L.length
    let d := ofVec L.flatten fs ss ls
    rows d = L.take (L.length / max k 1 * k) ∧
    (L ≠ [] → d.featureSize = fs ∧ d.sequenceSize = k ∧ d.labelsIdx = keepLabels fs ls) := by
  intro k d
  by_cases hne : L = []
  · subst hne
    refine ⟨?_, fun h => absurd rfl h⟩
    have : d = Dataset.empty := ofVec_nil fs ss ls
    rw [this]
    simp [rows, Dataset.empty, Dataset.size]
  · have hfs : 0 < fs := hfs.resolve_right hne
    have hLl : 0 < L.length := List.length_pos_iff.mpr hne
    have hl := length_flatten_rows hL
    have h1 : d.featureSize = fs := by
      change min fs L.flatten.length = fs
      rw [hl]
      exact min_eq_left (Nat.le_mul_of_pos_left _ hLl)
    have h2 : d.sequenceSize = k := by
      change min ss (L.flatten.length / max d.featureSize 1) = k
      rw [h1, hl, max_eq_left (show 1 ≤ fs by omega), Nat.mul_div_cancel _ hfs]
    have h3 : d.datasetSize = L.length / max k 1 * k * fs := by
      change L.flatten.length / max (d.featureSize * d.sequenceSize) 1
        * (d.featureSize * d.sequenceSize) = _
      rw [h1, h2, hl]
      by_cases hk : k = 0
      · rw [hk]; simp
      · have : 0 < fs * k := Nat.mul_pos hfs (by omega)
        rw [max_eq_left (show 1 ≤ k by omega), max_eq_left (show 1 ≤ fs * k by omega),
          Nat.mul_comm L.length, Nat.mul_div_mul_left _ _ hfs]
        ring
    have hle : L.length / max k 1 * k ≤ L.length := by
      by_cases hk : k = 0
      · rw [hk]; simp
      · rw [max_eq_left (show 1 ≤ k by omega)]
        exact Nat.div_mul_le_self _ _
    have h4 : d.size = L.length / max k 1 * k := by
      change d.datasetSize / max d.featureSize 1 = _
      rw [h1, h3, max_eq_left (show 1 ≤ fs by omega), Nat.mul_div_cancel _ hfs]
    have h5 : d.data = (L.take (L.length / max k 1 * k)).flatten := by
      change resize L.flatten d.datasetSize = _
      rw [h3, resize_take, take_flatten_rows hL _ hle]
      rw [hl]
      exact Nat.mul_le_mul_right _ hle
    refine ⟨?_, fun _ => ⟨h1, h2, ?_⟩⟩
    · unfold rows row
      rw [h1, h4, h5]
      rw [chunks_of_flatten fs _ (fun r hr => hL r (List.mem_of_mem_take hr)) _
        (by rw [List.length_take]; omega)]
      rw [List.take_take, Nat.min_self]
    · change keepLabels d.featureSize ls = _
      rw [h1]

theorem rows_length (d : Dataset α) : (rows d).length = d.size := by simp [rows]

/-- The dataset built from rows that make up whole sequences. -/
theorem ofVec_whole [Zero α] {fs m ss : Nat} {L : List (List α)} (hL : ∀ r ∈ L, r.length = fs)
    (hfs : 0 < fs ∨ L = []) (hm : L.length = m * ss) (ls : Finset Nat) :
    let d := ofVec L.flatten fs ss ls
    rows d = L ∧ (L ≠ [] → d.featureSize = fs ∧ d.sequenceSize = ss ∧ d.sequenceAmount = m ∧
      d.labelsIdx = keepLabels fs ls) := by
  intro d
  obtain ⟨h1, h2⟩ := ofVec_flatten hL hfs ss ls
  by_cases hne : L = []
  · subst hne
    refine ⟨?_, fun h => absurd rfl h⟩
    rw [h1]
    simp
  · have hLl : 0 < L.length := List.length_pos_iff.mpr hne
    have hss : 0 < ss := by
      rcases Nat.eq_zero_or_pos ss with h0 | h0
      · rw [h0] at hm; omega
      · exact h0
    have hmp : 0 < m := by
      rcases Nat.eq_zero_or_pos m with h0 | h0
      · rw [h0] at hm; omega
      · exact h0
    have hk : min ss L.length = ss := by
      apply min_eq_left
      rw [hm]
      exact Nat.le_mul_of_pos_left _ hmp
    rw [hk] at h1 h2
    rw [max_eq_left (show 1 ≤ ss by omega), hm, Nat.mul_div_cancel _ hss, ← hm, List.take_length] at h1
    obtain ⟨e1, e2, e3⟩ := h2 hne
    refine ⟨h1, fun _ => ⟨e1, e2, ?_, e3⟩⟩
    have hc := (consistent_ofVec L.flatten fs ss ls).seqs
    have hsz : d.size = m * ss := by rw [← rows_length, h1, hm]
    have : m * ss = d.sequenceAmount * ss := by
      rw [← hsz]
      change d.size = d.sequenceAmount * d.sequenceSize at hc
      rw [hc]
      change d.sequenceSize = ss at e2
      rw [e2]
    exact (Nat.eq_of_mul_eq_mul_right hss this).symm

end Verif.Data

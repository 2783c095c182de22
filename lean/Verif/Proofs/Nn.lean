import Verif.Model.Nn
import Verif.Proofs.BackFnn
import Verif.Proofs.Data

/-! Data sets through models on a path. -/

namespace Verif.Nn

open Verif.Net Verif.Graph Verif.Spec

/-! ### Filling the result -/

theorem copyTo_ok : ∀ (v a b c : List ℝ), b.length = v.length →
    copyTo (a ++ b ++ c) a.length v = .ok (a ++ v ++ c) := by
  intro v
  induction v with
  | nil =>
    intro a b c h
    rw [List.length_eq_zero_iff.mp h]
    rfl
  | cons x v ih =>
    intro a b c h
    cases b with
    | nil => simp at h
    | cons y b =>
      show (wr (a ++ (y :: b) ++ c) a.length x >>= fun ret => copyTo ret (a.length + 1) v) = _
      rw [wr_ok (by simp)]
      rw [Exec.bind_ok]
      have e : (a ++ (y :: b) ++ c).set a.length x = (a ++ [x]) ++ b ++ c := by
        simp [List.set_append_right]
      rw [e]
      have := ih (a ++ [x]) b c (by simpa using h)
      rw [List.length_append, List.length_singleton] at this
      rw [this]
      simp

/-- The loop of `predict`, if every prediction is `g` of the row. -/
theorem predict_loop {P : Net → Prop} {g : List ℝ → List ℝ} {d : Data.Dataset ℝ} {m : Nat}
    (hd : Consistent d) (hlen : ∀ i, i < d.size → (g (row d i)).length = m)
    (hp : ∀ n i, P n → i < d.size → ∃ n', n.predict (row d i) = .ok (n', .ok (g (row d i))) ∧ P n') :
    ∀ (j k : Nat), k + j = d.size → ∀ n, P n →
      ∃ n', each (predictRow d m) (List.range' k j)
          (n, ((List.range k).map fun i => g (row d i)).flatten ++ List.replicate (j * m) 0)
        = .ok ((n', ((List.range d.size).map fun i => g (row d i)).flatten), none) ∧ P n' := by
  intro j
  induction j with
  | zero =>
    intro k hk n hn
    refine ⟨n, ?_, hn⟩
    have : k = d.size := by omega
    subst this
    simp [each]
  | succ j ih =>
    intro k hk n hn
    obtain ⟨n', h1, h2⟩ := hp n k hn (by omega)
    obtain ⟨n'', h3, h4⟩ := ih (k + 1) (by omega) n' h2
    refine ⟨n'', ?_, h4⟩
    rw [List.range'_succ]
    show (predictRow d m _ k >>= fun r => _) = _
    have hl : (((List.range k).map fun i => g (row d i)).flatten).length = k * m := by
      rw [Data.length_flatten_rows (fs := m)]
      · simp
      · intro r hr
        obtain ⟨i, hi, rfl⟩ := List.mem_map.mp hr
        exact hlen i (by simp at hi; omega)
    have e : predictRow d m
        (n, ((List.range k).map fun i => g (row d i)).flatten ++ List.replicate ((j + 1) * m) 0) k
        = .ok ((n', ((List.range (k + 1)).map fun i => g (row d i)).flatten
            ++ List.replicate (j * m) 0), none) := by
      unfold predictRow
      rw [Data.entry_ok hd (by omega), Exec.bind_ok, h1, Exec.bind_ok]
      dsimp only
      have := copyTo_ok (g (row d k)) ((List.range k).map fun i => g (row d i)).flatten
        (List.replicate m 0) (List.replicate (j * m) 0) (by simp [hlen k (by omega)])
      rw [hl] at this
      rw [show (j + 1) * m = m + j * m by ring, List.replicate_add, ← List.append_assoc, this, Exec.bind_ok,
        List.range_succ]
      simp
    rw [e, Exec.bind_ok]
    exact h3

/-- `predict` on a data set, if every prediction is `g` of the row. -/
theorem predict_data {P : Net → Prop} {g : List ℝ → List ℝ} {d : Data.Dataset ℝ} {m : Nat}
    (hd : Consistent d) (hm : 0 < m) (hlen : ∀ i, i < d.size → (g (row d i)).length = m)
    (hp : ∀ n i, P n → i < d.size → ∃ n', n.predict (row d i) = .ok (n', .ok (g (row d i))) ∧ P n')
    {n : Net} (hn : P n) (hos : outputSize n = .ok m) :
    ∃ n' r, predict n d = .ok (n', .ok r) ∧ P n' ∧ Consistent r ∧ r.labelsIdx = ∅ ∧
      rows r = (rows d).map g ∧ (0 < d.size → r.featureSize = m) := by
  obtain ⟨n', h1, h2⟩ := predict_loop hd hlen hp d.size 0 (by omega) n hn
  have hL : ∀ r ∈ (List.range d.size).map fun i => g (row d i), r.length = m := by
    intro r hr
    obtain ⟨i, hi, rfl⟩ := List.mem_map.mp hr
    exact hlen i (by simpa using hi)
  have h3 := Data.ofVec_whole hL (.inl hm) (m := d.size) (ss := 1) (by simp) ∅
  refine ⟨n', Data.ofVec ((List.range d.size).map fun i => g (row d i)).flatten m 1 ∅, ?_, h2,
    Data.consistent_ofVec _ _ _ _, ?_, ?_, ?_⟩
  · unfold predict
    rw [hos, Exec.bind_ok]
    rw [← List.range_eq_range'] at h1
    simp only [List.range_zero, List.map_nil, List.flatten_nil, List.nil_append] at h1
    rw [h1, Exec.bind_ok]
  · ext i
    change i ∈ Data.keepLabels _ ∅ ↔ _
    rw [Data.mem_keepLabels]
    simp
  · rw [h3.1]
    unfold rows
    rw [List.map_map]
    rfl
  · intro h0
    exact (h3.2 (by intro e; have := congrArg List.length e; simp at this; omega)).1

/-! ### Models on a path -/

theorem outputSize_core {a b : AnyLayer} (h : core a = core b) : a.outputSize = b.outputSize := by
  cases a <;> cases b <;> simp [core] at h <;> simp [AnyLayer.outputSize] <;> simp_all

/-- A model that computes the composition of the layers `ks`. -/
structure Path (n0 : Net) (p : List Nat) (ks : List AnyLayer) (nin m : Nat) : Prop where
  ok : Ok n0.graph
  lists : Lists n0.graph
  path : IsPath n0.graph p
  ne : p ≠ []
  layers : p.map (fun i => n0.layers[i]?) = ks.map some
  maps : MapsAll nin m ks
  size : ∀ a, ks.getLast? = some a → a.outputSize = m

theorem Path.predict {n0 n : Net} {p : List Nat} {ks : List AnyLayer} {nin m : Nat}
    (h : Path n0 p ks nin m) (hs : Same n0 n) {x : List ℝ} (hx : x.length = nin) :
    ∃ n', n.predict x = .ok (n', .ok (prediction ks x)) ∧ Same n0 n' ∧ (prediction ks x).length = m := by
  obtain ⟨y, hy1, hy2⟩ := yieldsAll_of_maps h.maps hx
  obtain ⟨n', e⟩ := predict_path h.ok h.lists hs h.path h.ne h.layers hy2
  rw [prediction_of hy2]
  have h2 := predict_same e
  exact ⟨n', e, ⟨h2.1.trans hs.1, h2.2.trans hs.2⟩, hy1⟩

theorem Path.outputSize {n0 n : Net} {p : List Nat} {ks : List AnyLayer} {nin m : Nat}
    (h : Path n0 p ks nin m) (hs : Same n0 n) : Nn.outputSize n = .ok m := by
  obtain ⟨a, rest, rfl⟩ : ∃ a rest, p = a :: rest := by
    cases hp : p with
    | nil => exact absurd hp h.ne
    | cons a rest => exact ⟨a, rest, rfl⟩
  have hout := (path_facts h.ok h.lists h.path).2.2
  unfold Nn.outputSize
  rw [hs.1, hout]
  dsimp only
  have hk := h.layers
  have hlast : n0.layers[(a :: rest).getLast (by simp)]? = ks.getLast? := by
    have e := congrArg List.getLast? hk
    rw [List.getLast?_map, List.getLast?_map, List.getLast?_eq_getLast_of_ne_nil (by simp)] at e
    rw [Option.map_some] at e
    cases hks : ks.getLast? with
    | none => rw [hks] at e; cases e
    | some z => rw [hks] at e; simpa using e
  cases hks : ks.getLast? with
  | none =>
    rw [List.getLast?_eq_none_iff] at hks
    rw [hks] at hk
    simp at hk
  | some z =>
    rw [hks] at hlast
    obtain ⟨l', e1, e2⟩ := getElem?_core hs.2 hlast
    rw [rd_of_some e1, Exec.bind_ok, outputSize_core e2, h.size z hks]

theorem Path.predict_data {n0 n : Net} {p : List Nat} {ks : List AnyLayer} {nin m : Nat}
    (h : Path n0 p ks nin m) (hs : Same n0 n) {d : Data.Dataset ℝ} (hd : Consistent d) (hm : 0 < m)
    (hf : 0 < d.size → d.featureSize = nin) :
    ∃ n' r, Nn.predict n d = .ok (n', .ok r) ∧ Same n0 n' ∧ Consistent r ∧ r.labelsIdx = ∅ ∧
      rows r = (rows d).map (prediction ks) ∧ (0 < d.size → r.featureSize = m) := by
  have hx : ∀ i, i < d.size → (row d i).length = nin := fun i hi => by
    rw [Data.row_length hd hi, hf (by omega)]
  refine Nn.predict_data (P := Same n0) (g := prediction ks) hd hm ?_ ?_ hs (h.outputSize hs)
  · intro i hi
    obtain ⟨_, _, _, e⟩ := h.predict hs (hx i hi)
    exact e
  · intro n' i hn' hi
    obtain ⟨n'', e1, e2, _⟩ := h.predict hn' (hx i hi)
    exact ⟨n'', e1, e2⟩

end Verif.Nn

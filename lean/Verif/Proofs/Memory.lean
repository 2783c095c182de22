import Verif.Model.Memory
import Verif.Spec.Memory
import Verif.Spec.Dense
import Verif.Proofs.Activation

/-! Proofs about the array functions on one memory. -/

namespace Verif.Mem

open Verif Verif.Spec Finset

noncomputable section

theorem rd_cell {m : List ℝ} {p i : Nat} (h : p + i < m.length) : rd m (p + i) = .ok (cell m p i) := by
  rw [rd_ok h]
  simp [cell, h]

theorem cell_congr {m m' : List ℝ} {p i : Nat} (h : m'[p + i]? = m[p + i]?) : cell m' p i = cell m p i := by
  simp [cell, List.getD_eq_getElem?_getD, h]

theorem stored_zero (m : List ℝ) (dst : Nat) (v : Nat → ℝ) : Stored m m dst 0 v :=
  ⟨rfl, fun i h => absurd h (Nat.not_lt_zero i), fun _ _ => rfl⟩

theorem stored_congr {m m' : List ℝ} {dst n : Nat} {v w : Nat → ℝ} (h : Stored m m' dst n v)
    (hv : ∀ i, i < n → v i = w i) : Stored m m' dst n w :=
  ⟨h.1, fun i hi => by rw [h.2.1 i hi, hv i hi], h.2.2⟩

/-- Reading outside what was stored. -/
theorem stored_rd {m m' : List ℝ} {dst n : Nat} {v : Nat → ℝ} (h : Stored m m' dst n v) {p i : Nat}
    (hp : p + i < m.length) (ho : p + i < dst ∨ dst + n ≤ p + i) : rd m' (p + i) = .ok (cell m p i) := by
  rw [rd_cell (by rw [h.1]; exact hp), cell_congr (h.2.2 _ ho)]

/-- The next number is stored. -/
theorem stored_snoc {m m' : List ℝ} {dst n : Nat} {v : Nat → ℝ} (h : Stored m m' dst n v)
    (hl : dst + n < m.length) : Stored m (m'.set (dst + n) (v n)) dst (n + 1) v := by
  refine ⟨by simp [h.1], fun i hi => ?_, fun j hj => ?_⟩
  · by_cases e : i = n
    · subst e
      rw [List.getElem?_set_self (by rw [h.1]; exact hl)]
    · rw [List.getElem?_set_ne (by omega), h.2.1 i (by omega)]
  · rw [List.getElem?_set_ne (by omega), h.2.2 j (by omega)]

/-- A loop that stores one number in each round. -/
theorem loop_stored {m : List ℝ} {dst n : Nat} {v : Nat → ℝ} {body : Nat → List ℝ → Exec (List ℝ)}
    (hl : dst + n ≤ m.length)
    (hb : ∀ i m', i < n → Stored m m' dst i v → body i m' = .ok (m'.set (dst + i) (v i))) :
    ∃ m', forUp n m body = .ok m' ∧ Stored m m' dst n v := by
  refine forUp_returns (fun i m' => Stored m m' dst i v) (stored_zero m dst v) ?_
  intro i m' hi h
  exact ⟨_, hb i m' hi h, stored_snoc h (by omega)⟩

theorem map1_stored {f : ℝ → ℝ} {dst src n : Nat} {m : List ℝ} (hd : dst + n ≤ m.length)
    (hs : src + n ≤ m.length) (h : InPlace dst src n) :
    ∃ m', map1 f dst src n m = .ok m' ∧ Stored m m' dst n fun i => f (cell m src i) := by
  refine loop_stored hd ?_
  intro i m' hi hm
  have := hm.1
  rw [stored_rd hm (by omega) (by rcases h with h | h <;> omega), Exec.bind_ok, wr_ok (by omega)]

theorem map2_stored {f : ℝ → ℝ → ℝ} {dst src1 src2 n : Nat} {m : List ℝ} (hd : dst + n ≤ m.length)
    (h1 : src1 + n ≤ m.length) (h2 : src2 + n ≤ m.length) (o1 : InPlace dst src1 n) (o2 : InPlace dst src2 n) :
    ∃ m', map2 f dst src1 src2 n m = .ok m' ∧
      Stored m m' dst n fun i => f (cell m src1 i) (cell m src2 i) := by
  refine loop_stored hd ?_
  intro i m' hi hm
  have := hm.1
  rw [stored_rd hm (by omega) (by rcases o1 with h | h <;> omega), Exec.bind_ok,
    stored_rd hm (by omega) (by rcases o2 with h | h <;> omega), Exec.bind_ok, wr_ok (by omega)]

/-- An inner loop that adds `t 0, t 1, …` to the number at `dst`. -/
theorem acc_loop {m : List ℝ} {dst n : Nat} {a : ℝ} {t : Nat → ℝ} {body : Nat → List ℝ → Exec (List ℝ)}
    (hl : dst < m.length)
    (hb : ∀ j b, j < n → body j (m.set dst b) = .ok (m.set dst (b + t j))) :
    forUp n (m.set dst a) body = .ok (m.set dst (a + ∑ j ∈ range n, t j)) := by
  obtain ⟨m', h1, h2⟩ := forUp_returns (fun i m' => m' = m.set dst (a + ∑ j ∈ range i, t j))
    (body := body) (n := n) (s := m.set dst a) (by simp) (by
      intro j m' hj hm
      subst hm
      refine ⟨_, hb j _ hj, ?_⟩
      rw [sum_range_succ, add_assoc])
  rw [h1, h2]

theorem rd_set_self {m : List ℝ} {i : Nat} (h : i < m.length) (b : ℝ) : rd (m.set i b) i = .ok b := by
  rw [rd_ok (by simpa using h)]
  simp

theorem set_rd {m : List ℝ} {i j : Nat} (h : i ≠ j) (b : ℝ) : rd (m.set i b) j = rd m j := by
  unfold rd
  rw [List.getElem?_set_ne h]

theorem matarr_stored {dst mat src rows cols : Nat} {m : List ℝ} (hd : dst + rows ≤ m.length)
    (hm : mat + rows * cols ≤ m.length) (hs : src + cols ≤ m.length)
    (o1 : NoOverlap dst rows mat (rows * cols)) (o2 : NoOverlap dst rows src cols) :
    ∃ m', matarrMulNoCheck dst mat src rows cols m = .ok m' ∧
      Stored m m' dst rows fun i => ∑ j ∈ range cols, cell m mat (i * cols + j) * cell m src j := by
  refine loop_stored hd ?_
  intro i m' hi h
  have hl := h.1
  rw [wr_ok (by omega), Exec.bind_ok]
  rw [acc_loop (t := fun j => cell m mat (i * cols + j) * cell m src j) (by omega), zero_add]
  intro j b hj
  have := rowmajor_lt hi hj
  rw [rd_set_self (by omega), Exec.bind_ok, set_rd (by rcases o1 with o | o <;> omega),
    stored_rd h (by omega) (by rcases o1 with o | o <;> omega), Exec.bind_ok,
    set_rd (by rcases o2 with o | o <;> omega),
    stored_rd h (by omega) (by rcases o2 with o | o <;> omega), Exec.bind_ok, wr_ok (by simp; omega), List.set_set]

theorem dense_stored {dst src weights bias n k : Nat} {m : List ℝ} (hd : dst + k ≤ m.length)
    (hs : src + n ≤ m.length) (hw : weights + k * n ≤ m.length) (hb : bias + k ≤ m.length)
    (o1 : NoOverlap dst k src n) (o2 : NoOverlap dst k weights (k * n)) (o3 : InPlace dst bias k) :
    ∃ m', dense dst src weights bias n k m = .ok m' ∧
      Stored m m' dst k (affine (fun i j => cell m weights (i * n + j)) (cell m bias) (cell m src) n) := by
  refine loop_stored hd ?_
  intro i m' hi h
  have hl := h.1
  rw [stored_rd h (by omega) (by rcases o3 with o | o <;> omega), Exec.bind_ok, wr_ok (by omega), Exec.bind_ok]
  rw [acc_loop (t := fun j => cell m weights (i * n + j) * cell m src j) (by omega)]
  · rfl
  intro j b hj
  have := rowmajor_lt hi hj
  rw [rd_set_self (by omega), Exec.bind_ok, set_rd (by rcases o2 with o | o <;> omega),
    stored_rd h (by omega) (by rcases o2 with o | o <;> omega), Exec.bind_ok,
    set_rd (by rcases o1 with o | o <;> omega),
    stored_rd h (by omega) (by rcases o1 with o | o <;> omega), Exec.bind_ok, wr_ok (by simp; omega), List.set_set]

theorem softmaxLoops_stored {dst src n : Nat} {m : List ℝ} (d : ℝ) (hd : dst + n ≤ m.length)
    (hs : src + n ≤ m.length) (h : InPlace dst src n) :
    ∃ m', softmaxLoops dst src n d m = .ok m' ∧ Stored m m' dst n (softmaxFn n (cell m src)) := by
  unfold softmaxLoops
  obtain ⟨s, h1, h2, h3⟩ := forUp_returns (n := n) (s := (m, (0 : ℝ))) (body := fun i s => do
      let x ← rd s.1 (src + i)
      let m ← wr s.1 (dst + i) (Real.exp (x - d))
      let v ← rd m (dst + i)
      .ok (m, s.2 + v))
    (fun i s => Stored m s.1 dst i (fun i => Real.exp (cell m src i - d)) ∧
      s.2 = ∑ j ∈ range i, Real.exp (cell m src j - d)) ⟨stored_zero _ _ _, by simp⟩ (by
      rintro i ⟨m', a⟩ hi ⟨hm, rfl⟩
      have hl := hm.1
      dsimp only at hm hl ⊢
      rw [stored_rd hm (by omega) (by rcases h with h | h <;> omega), Exec.bind_ok, wr_ok (by omega), Exec.bind_ok,
        rd_set_self (by omega), Exec.bind_ok]
      exact ⟨_, rfl, stored_snoc hm (by omega), by rw [sum_range_succ]⟩)
  rw [h1, Exec.bind_ok]
  dsimp only
  obtain ⟨m', k1, k2⟩ := loop_stored (m := s.1) (dst := dst) (n := n)
    (v := fun i => Real.exp (cell m src i - d) * (1 / s.2)) (body := fun i m => do
      let v ← rd m (dst + i)
      wr m (dst + i) (v * (1 / s.2))) (by rw [h2.1]; exact hd) (by
      intro i m' hi hm
      have hl := hm.1
      have := h2.1
      have e : rd m' (dst + i) = .ok (Real.exp (cell m src i - d)) := by
        apply rd_of_some
        rw [hm.2.2 _ (Or.inr (by omega)), h2.2.1 i hi]
      rw [e, Exec.bind_ok, wr_ok (by omega)])
  rw [k1]
  refine ⟨m', rfl, by rw [k2.1, h2.1], ?_, fun j hj => by rw [k2.2.2 j hj, h2.2.2 j hj]⟩
  intro i hi
  rw [k2.2.1 i hi, h3]
  have e := Act.softmaxFn_shift (n := n) (cell m src) (-d) i
  unfold softmaxFn at e ⊢
  rw [← e]
  simp only [sub_eq_add_neg]
  rw [mul_one_div]

theorem softmax1OptNoCheck_stored {dst src gradients n : Nat} {m : List ℝ} (hd : dst + n ≤ m.length)
    (hs : src + n ≤ m.length) (hg : gradients + n ≤ m.length) (o1 : NoOverlap dst n src n)
    (o2 : NoOverlap dst n gradients n) :
    ∃ m', softmax1OptNoCheck dst src gradients n m = .ok m' ∧ Stored m m' dst n fun i =>
      ∑ j ∈ range n, cell m src i * ((if i = j then 1 else 0) - cell m src j) * cell m gradients j := by
  refine loop_stored hd ?_
  intro i m' hi h
  have hl := h.1
  rw [wr_ok (by omega), Exec.bind_ok]
  rw [acc_loop (t := fun j => cell m src i * ((if i = j then 1 else 0) - cell m src j) * cell m gradients j)
    (by omega), zero_add]
  intro j b hj
  rw [rd_set_self (by omega), Exec.bind_ok, set_rd (by rcases o1 with o | o <;> omega),
    stored_rd h (by omega) (by rcases o1 with o | o <;> omega), Exec.bind_ok,
    set_rd (by rcases o1 with o | o <;> omega),
    stored_rd h (by omega) (by rcases o1 with o | o <;> omega), Exec.bind_ok,
    set_rd (by rcases o2 with o | o <;> omega),
    stored_rd h (by omega) (by rcases o2 with o | o <;> omega), Exec.bind_ok, wr_ok (by simp; omega), List.set_set]

theorem vec_drop (m : List ℝ) (p : Nat) : vec (m.drop p) = cell m p := by
  funext i
  simp [vec, cell, List.getD_eq_getElem?_getD]

theorem softmax1_stored {dst src gradients n : Nat} {m : List ℝ} (hd : dst + n ≤ m.length)
    (hs : src + n ≤ m.length) (hg : gradients + n ≤ m.length) (o : NoOverlap dst n gradients n) :
    ∃ m', softmax1 dst src gradients n m = .ok m' ∧ Stored m m' dst n fun i =>
      ∑ j ∈ range n, softmaxFn n (cell m src) i * ((if i = j then 1 else 0) - softmaxFn n (cell m src) j)
        * cell m gradients j := by
  unfold softmax1
  rw [Act.softmax_eq (by simp) (by simp; omega), Exec.bind_ok, vec_drop]
  refine loop_stored hd ?_
  intro i m' hi h
  have hl := h.1
  rw [wr_ok (by omega), Exec.bind_ok]
  have ht : ∀ j, j < n → rd (tab n (softmaxFn n (cell m src))) j = .ok (softmaxFn n (cell m src) j) := by
    intro j hj
    rw [rd_ok (by simpa [tab] using hj)]
    simp [tab]
  rw [acc_loop (t := fun j => softmaxFn n (cell m src) i * ((if i = j then 1 else 0) - softmaxFn n (cell m src) j)
    * cell m gradients j) (by omega), zero_add]
  intro j b hj
  rw [rd_set_self (by omega), Exec.bind_ok, ht i hi, Exec.bind_ok, ht j hj, Exec.bind_ok,
    set_rd (by rcases o with o | o <;> omega),
    stored_rd h (by omega) (by rcases o with o | o <;> omega), Exec.bind_ok, wr_ok (by simp; omega), List.set_set]

end

end Verif.Mem

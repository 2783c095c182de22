import Verif.Proofs.SlideOrd
import Verif.Proofs.Activation

/-
What the floating-point activations compute, in program order.
-/

namespace Verif.Float
open Spec Slide

variable {A : Arith}

theorem mapArrF_eq (f : Fl A → Fl A) {dst src : List (Fl A)} {n : Nat} (hd : dst.length = n)
    (hs : n ≤ src.length) : mapArrF f dst src n = .ok (tab n fun i => f (vec src i)) := by
  unfold mapArrF
  have key := forUp_tab (n := n) (L := n) (f := vec dst) (r := fun i => f (vec src i))
    (body := fun i dst => do let x ← rd src i; wr dst i (f x)) le_rfl ?_
  · rw [show dst = tab n (vec dst) by rw [← hd]; exact eq_tab dst]
    rw [key]
    congr 1
    apply tab_congr
    intro i hi; rw [if_pos hi]
  · intro i g hi
    rw [rd_vec (by omega), Exec.bind_ok, wr_tab _ _ hi]

/-- The largest element, found without any law of the order. -/
theorem max_run {α : Type} [LT α] [DecidableLT α] [Zero α] {src : List α} {n : Nat} (hn : 0 < n)
    (hs : n ≤ src.length) : Act.max src n = .ok (runMax (vec src) n) := by
  have h : ∃ k, Act.maxElement src n = .ok k ∧ (k < n ∧ vec src k = runMax (vec src) n) := by
    unfold Act.maxElement
    rw [if_neg (by omega)]
    have key := forFrom_returns (body := fun i best => do
        let b ← rd src best
        let x ← rd src i
        pure (if b < x then i else best))
      (fun i k => k < i ∧ vec src k = runMax (vec src) i) (n - 1) 1 0 ⟨by omega, rfl⟩ ?_
    · rw [show 1 + (n - 1) = n by omega] at key
      exact key
    · rintro i k h1 h2 ⟨hk, he⟩
      rw [rd_vec (by omega), Exec.bind_ok, rd_vec (by omega), Exec.bind_ok]
      refine ⟨_, rfl, ?_⟩
      rw [runMax_step _ h1, ← he]
      split
      · exact ⟨by omega, rfl⟩
      · exact ⟨by omega, rfl⟩
  obtain ⟨k, h1, h2, h3⟩ := h
  unfold Act.max
  rw [h1, Exec.bind_ok, if_pos h2, rd_vec (by omega), h3]

/-- Both softmax bodies, for any function `f` of the elements. -/
theorem softmaxBodyF_eq (f : Fl A → Fl A) {dst src : List (Fl A)} {n : Nat} (hd : dst.length = n)
    (hs : n ≤ src.length) :
    (do
      let s ← forUp n (dst, (0 : Fl A)) fun i s => do
        let x ← rd src i
        let dst ← wr s.1 i (f x)
        let v ← rd dst i
        pure (dst, s.2 + v)
      let inv := 1 / s.2
      forUp n s.1 fun i dst => do
        let v ← rd dst i
        wr dst i (v * inv))
    = Exec.ok (tab n fun i => f (vec src i) * (1 / ordSum 0 n fun j => f (vec src j))) := by
  have key := forUp_steps (n := n)
    (F := fun k => (tab n (fun i => if i < k then f (vec src i) else vec dst i),
        ordSum (0 : Fl A) k fun j => f (vec src j)))
    (s := (dst, (0 : Fl A)))
    (body := fun i (s : List (Fl A) × Fl A) => do
        let x ← rd src i
        let dst ← wr s.1 i (f x)
        let v ← rd dst i
        pure (dst, s.2 + v)) ?_ ?_
  · rw [key, Exec.bind_ok]
    simp only []
    have k2 := forUp_tab_in (n := n) (L := n)
      (f := fun i => if i < n then f (vec src i) else vec dst i)
      (r := fun i v => v * (1 / ordSum 0 n fun j => f (vec src j)))
      (body := fun i dst => do
        let v ← rd dst i
        wr dst i (v * (1 / ordSum 0 n fun j => f (vec src j)))) le_rfl ?_
    · rw [k2]
      congr 1
      apply tab_congr
      intro i hi; rw [if_pos hi, if_pos hi]
    · intro i g hi
      rw [rd_tab _ hi, Exec.bind_ok, wr_tab _ _ hi]
  · simp only [Nat.not_lt_zero, if_false]
    rw [← hd, ← eq_tab]
    rfl
  · intro i hi
    rw [rd_vec (by omega), Exec.bind_ok]
    simp only []
    rw [wr_tab _ _ hi, Exec.bind_ok, rd_tab _ hi, Exec.bind_ok, upd_self]
    show Exec.ok _ = Exec.ok _
    congr 1
    refine Prod.ext ?_ rfl
    apply tab_congr
    intro k hk
    unfold upd
    by_cases hki : k = i
    · subst hki; simp
    · rw [if_neg hki]
      simp only []
      by_cases hlt : k < i
      · rw [if_pos hlt, if_pos (by omega)]
      · rw [if_neg hlt, if_neg (by omega)]

theorem softmaxF_eq (L : Lib A) {dst src : List (Fl A)} {n : Nat} (hd : dst.length = n)
    (hs : n ≤ src.length) :
    softmaxF L dst src n
      = .ok (tab n fun i => L.expF (vec src i) * (1 / ordSum 0 n fun j => L.expF (vec src j))) :=
  softmaxBodyF_eq L.expF hd hs

theorem stableSoftmaxF_eq (L : Lib A) {dst src : List (Fl A)} {n : Nat} (hn : 0 < n)
    (hd : dst.length = n) (hs : n ≤ src.length) :
    stableSoftmaxF L dst src n
      = .ok (tab n fun i => L.expF (vec src i - runMax (vec src) n)
          * (1 / ordSum 0 n fun j => L.expF (vec src j - runMax (vec src) n))) := by
  unfold stableSoftmaxF
  rw [max_run hn hs, Exec.bind_ok]
  exact softmaxBodyF_eq (fun x => L.expF (x - runMax (vec src) n)) hd hs

end Verif.Float

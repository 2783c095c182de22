import Verif.Spec.Arma
import Verif.Proofs.Data

namespace Verif.Arma

open Verif.Data Verif.Spec

variable {α : Type}

/-- Matrices whose memory is the columns one after the other. -/
theorem hasColumns_of_flatten {r c : Nat} {L : List (List α)} (hL : ∀ x ∈ L, x.length = r)
    (hc : c = L.length) : HasColumns ⟨r, c, L.flatten⟩ r L := by
  have hlen : L.flatten.length = L.length * r := length_flatten_rows hL
  refine ⟨rfl, hc, by rw [hlen, Nat.mul_comm], hL, ?_⟩
  intro j x hj i hi
  have hjl : j < L.length := (List.getElem?_eq_some_iff.mp hj).1
  rw [Mat.get?, if_pos ⟨hi, hc ▸ hjl⟩]
  have hx : x.length = r := hL x (List.mem_of_getElem? hj)
  have key : ∀ (L : List (List α)), (∀ y ∈ L, y.length = r) → ∀ j, L[j]? = some x →
      L.flatten[j * r + i]? = x[i]? := by
    intro L
    induction L with
    | nil => intro _ j hj; simp at hj
    | cons y L ih =>
      intro hL j hj
      have hy : y.length = r := hL y (by simp)
      cases j with
      | zero =>
        simp only [List.getElem?_cons_zero, Option.some.injEq] at hj
        subst hj
        rw [List.flatten_cons, List.getElem?_append_left (by omega), Nat.zero_mul, Nat.zero_add]
      | succ j =>
        rw [List.getElem?_cons_succ] at hj
        rw [List.flatten_cons, List.getElem?_append_right (by rw [hy, Nat.succ_mul]; omega), hy,
          show (j + 1) * r + i - r = j * r + i by rw [Nat.succ_mul]; omega]
        exact ih (fun z hz => hL z (by simp [hz])) j hj
  exact key L hL j hj

/-- The memory of a matrix is its columns one after the other. -/
theorem elems_of_hasColumns {m : Mat α} {r : Nat} {L : List (List α)} (h : HasColumns m r L) :
    m.elems = L.flatten := by
  have hlen : L.flatten.length = L.length * r := length_flatten_rows h.heights
  have h' := hasColumns_of_flatten h.heights rfl
  apply List.ext_getElem?
  intro n
  by_cases hn : n < L.length * r
  · have hr : 0 < r := by
      rcases Nat.eq_zero_or_pos r with h0 | h0
      · rw [h0] at hn; omega
      · exact h0
    have hj : n / r < L.length := (Nat.div_lt_iff_lt_mul hr).mpr hn
    have hi : n % r < r := Nat.mod_lt _ hr
    have e : n = n / r * r + n % r := by rw [Nat.mul_comm]; exact (Nat.div_add_mod n r).symm
    have hg := h.get _ _ (List.getElem?_eq_getElem hj) _ hi
    have hg' := h'.get _ _ (List.getElem?_eq_getElem hj) _ hi
    rw [Mat.get?, if_pos ⟨by rw [h.rows]; exact hi, by rw [h.cols]; exact hj⟩, h.rows, ← e] at hg
    rw [Mat.get?, if_pos ⟨hi, hj⟩] at hg'
    dsimp only at hg'
    rw [← e] at hg'
    rw [hg, hg']
  · rw [List.getElem?_eq_none (by rw [h.size, Nat.mul_comm]; omega),
      List.getElem?_eq_none (by omega)]

theorem toMat_columns [Zero α] {d : Dataset α} (h : Consistent d) :
    HasColumns (toMat d) d.featureSize (rows d) := by
  have hr : ∀ x ∈ rows d, x.length = d.featureSize := by
    intro x hx
    obtain ⟨i, hi, rfl⟩ := List.mem_map.mp hx
    exact row_length h (List.mem_range.mp hi)
  have e : toMat d = ⟨d.featureSize, d.featureAmount, (rows d).flatten⟩ := by
    simp only [toMat, Mat.ofVec, Mat.reshape]
    rw [rows_flatten h, show d.featureSize * d.featureAmount = d.data.length by
      rw [h.data, Nat.mul_comm]; rfl, resize_self]
  rw [e]
  exact hasColumns_of_flatten hr (by rw [rows_length]; rfl)

end Verif.Arma

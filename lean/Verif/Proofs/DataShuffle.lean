import Verif.Proofs.Data

/-! `shuffle` moves whole rows. -/

namespace Verif.Data

open Verif.Spec

variable {α : Type}

theorem cells_ne {fs i j i' j' : Nat} (hj : j < fs) (hj' : j' < fs) (h : i ≠ i' ∨ j ≠ j') :
    i * fs + j ≠ i' * fs + j' := by
  intro e
  have h1 : (i * fs + j) / fs = i := by
    rw [Nat.mul_comm, Nat.mul_add_div (by omega), Nat.div_eq_of_lt hj]; omega
  have h2 : (i' * fs + j') / fs = i' := by
    rw [Nat.mul_comm, Nat.mul_add_div (by omega), Nat.div_eq_of_lt hj']; omega
  have : i = i' := by rw [← h1, ← h2, e]
  subst this
  omega

/-- The inner loop copies a row. -/
theorem copyRow [Zero α] {d : Dataset α} (h : Consistent d) {c t : Nat} (hc : c < d.size)
    (ht : t < d.size) {new : List α} (hn : new.length = d.data.length) :
    ∃ r, forUp d.featureSize new (fun i new => do
        let v ← rd d.data (c * d.featureSize + i)
        wr new (t * d.featureSize + i) v) = .ok r ∧ r.length = d.data.length ∧
      (∀ j < d.featureSize, r[t * d.featureSize + j]? = d.data[c * d.featureSize + j]?) ∧
      (∀ i j, j < d.featureSize → i ≠ t → r[i * d.featureSize + j]? = new[i * d.featureSize + j]?) := by
  have key := forUp_returns (n := d.featureSize) (s := new) (body := fun i new => do
        let v ← rd d.data (c * d.featureSize + i)
        wr new (t * d.featureSize + i) v)
    (fun k (r : List α) => r.length = d.data.length ∧
      (∀ j < k, r[t * d.featureSize + j]? = d.data[c * d.featureSize + j]?) ∧
      (∀ i j, j < d.featureSize → i ≠ t → r[i * d.featureSize + j]? = new[i * d.featureSize + j]?))
    ⟨hn, fun j hj => absurd hj (Nat.not_lt_zero _), fun _ _ _ _ => rfl⟩ ?_
  · exact key
  · rintro k r hk ⟨h1, h2, h3⟩
    have hr := cell_lt h hc hk
    have hw := cell_lt h ht hk
    refine ⟨r.set (t * d.featureSize + k) d.data[c * d.featureSize + k], ?_, ?_, ?_, ?_⟩
    · rw [rd_ok hr, Exec.bind_ok, wr_ok (by omega)]
    · simpa using h1
    · intro j hj
      by_cases hjk : j = k
      · subst hjk
        rw [List.getElem?_set_self (by omega), List.getElem?_eq_getElem hr]
      · rw [List.getElem?_set_ne (by omega)]
        exact h2 j (by omega)
    · intro i j hj hi
      rw [List.getElem?_set_ne (Ne.symm (cells_ne hj hk (.inl hi)))]
      exact h3 i j hj hi

theorem shuffle_ok [Zero α] {d : Dataset α} (h : Consistent d) {perm : List Nat}
    (hp : perm.Perm (List.range d.size)) :
    ∃ data, d.shuffle perm = .ok { d with data := data } ∧ data.length = d.data.length ∧
      ∀ i t, perm[i]? = some t → row { d with data := data } t = row d i := by
  have hlen : perm.length = d.size := by rw [hp.length_eq]; simp
  have hnd : perm.Nodup := hp.nodup_iff.mpr List.nodup_range
  have hmem : ∀ (i : Nat) (hi : i < perm.length), perm[i] < d.size := fun i hi => by
    have := hp.mem_iff.mp (List.getElem_mem hi)
    simpa using this
  have key := forUp_returns (n := d.featureAmount) (s := List.replicate d.data.length (0 : α))
    (body := fun curr new => do
      let to_ ← rd perm curr
      forUp d.featureSize new fun i new => do
        let v ← rd d.data (curr * d.featureSize + i)
        wr new (to_ * d.featureSize + i) v)
    (fun k (r : List α) => r.length = d.data.length ∧
      ∀ i < k, ∀ t, perm[i]? = some t → ∀ j < d.featureSize,
        r[t * d.featureSize + j]? = d.data[i * d.featureSize + j]?)
    ⟨by simp, fun i hi => absurd hi (Nat.not_lt_zero _)⟩ ?_
  · obtain ⟨data, h1, h2, h3⟩ := key
    refine ⟨data, ?_, h2, ?_⟩
    · unfold Dataset.shuffle
      rw [h1]
      rfl
    · intro i t hit
      have hi : i < perm.length := by
        by_contra hc
        rw [List.getElem?_eq_none (by omega)] at hit
        cases hit
      unfold row
      dsimp only
      apply List.ext_getElem?
      intro j
      rw [List.getElem?_take, List.getElem?_take]
      by_cases hj : j < d.featureSize
      · rw [if_pos hj, if_pos hj, List.getElem?_drop, List.getElem?_drop]
        exact h3 i (by rw [hlen] at hi; exact hi) t hit j hj
      · rw [if_neg hj, if_neg hj]
  · rintro k r hk ⟨h1, h2⟩
    have hk' : k < perm.length := by rw [hlen]; exact hk
    obtain ⟨r', e1, e2, e3, e4⟩ := copyRow h (c := k) (t := perm[k]) hk (hmem k hk') h1
    refine ⟨r', ?_, e2, ?_⟩
    · rw [rd_ok hk', Exec.bind_ok]
      exact e1
    · intro i hi t hit j hj
      by_cases hik : i = k
      · subst hik
        rw [List.getElem?_eq_getElem hk'] at hit
        cases hit
        exact e3 j hj
      · have hne : t ≠ perm[k] := by
          intro e
          have hi' : i < perm.length := by omega
          rw [List.getElem?_eq_getElem hi'] at hit
          cases hit
          exact hik ((List.Nodup.getElem_inj_iff hnd).mp e)
        rw [e4 t j hj hne]
        exact h2 i (by omega) t hit j hj

end Verif.Data

import Verif.Exec

/-
Helper lemmas about copy loops and row-major indices.
-/

namespace Verif

theorem rowmajor_inj {D i r i' r' : Nat} (hr : r < D) (hr' : r' < D)
    (h : i * D + r = i' * D + r') : i = i' ∧ r = r' := by
  have h1 : (i * D + r) / D = i := by
    rw [Nat.mul_comm, Nat.mul_add_div (by omega), Nat.div_eq_of_lt hr, Nat.add_zero]
  have h2 : (i' * D + r') / D = i' := by
    rw [Nat.mul_comm, Nat.mul_add_div (by omega), Nat.div_eq_of_lt hr', Nat.add_zero]
  have : i = i' := by rw [← h1, ← h2, h]
  subst this
  exact ⟨rfl, by omega⟩

theorem rowmajor_lt {D i r n : Nat} (hi : i < n) (hr : r < D) : i * D + r < n * D := by
  have : (i + 1) * D ≤ n * D := Nat.mul_le_mul_right D hi
  rw [Nat.succ_mul] at this
  omega

/-- One loop of element copies through injective destination indices. -/
theorem copyLoop {α : Type _} (src : List α) (f g : Nat → Nat) (n : Nat) (dst : List α)
    (hf : ∀ k, k < n → f k < src.length) (hg : ∀ k, k < n → g k < dst.length)
    (inj : ∀ k k', k < n → k' < n → g k = g k' → k = k') :
    (forUp n dst fun k dst => do let v ← rd src (f k); wr dst (g k) v).Returns
      (fun d => d.length = dst.length ∧ (∀ k, k < n → d[g k]? = src[f k]?) ∧
        ∀ q, (∀ k, k < n → g k ≠ q) → d[q]? = dst[q]?) := by
  apply forUp_returns (fun m (d : List α) => d.length = dst.length ∧
      (∀ k, k < m → d[g k]? = src[f k]?) ∧ ∀ q, (∀ k, k < m → g k ≠ q) → d[q]? = dst[q]?)
  · exact ⟨rfl, by intro k hk; omega, fun _ _ => rfl⟩
  · rintro i d hi ⟨hl, hv, hfr⟩
    rw [rd_ok (hf i hi), Exec.bind_ok, wr_ok (by rw [hl]; exact hg i hi)]
    refine .ok ⟨by simp [hl], ?_, ?_⟩
    · intro k hk
      by_cases hki : k = i
      · subst hki
        have h1 := hg k hi
        have h2 := hf k hi
        simp [hl, h1, h2]
      · have hne : g i ≠ g k := fun h => hki (inj _ _ hi (by omega) h).symm
        rw [List.getElem?_set_ne hne]
        exact hv k (by omega)
    · intro q hq
      rw [List.getElem?_set_ne (hq i (by omega))]
      exact hfr q (fun k hk => hq k (by omega))

/-- Two nested loops of element copies through injective destination indices. -/
theorem copyLoop2 {α : Type _} (src : List α) (f g : Nat → Nat → Nat) (n m : Nat)
    (dst : List α)
    (hf : ∀ i k, i < n → k < m → f i k < src.length)
    (hg : ∀ i k, i < n → k < m → g i k < dst.length)
    (inj : ∀ i k i' k', i < n → k < m → i' < n → k' < m → g i k = g i' k' → i = i' ∧ k = k') :
    (forUp n dst fun i dst => forUp m dst fun k dst => do
        let v ← rd src (f i k); wr dst (g i k) v).Returns
      (fun d => d.length = dst.length ∧
        (∀ i k, i < n → k < m → d[g i k]? = src[f i k]?) ∧
        ∀ q, (∀ i k, i < n → k < m → g i k ≠ q) → d[q]? = dst[q]?) := by
  apply forUp_returns (fun N (d : List α) => d.length = dst.length ∧
      (∀ i k, i < N → k < m → d[g i k]? = src[f i k]?) ∧
      ∀ q, (∀ i k, i < N → k < m → g i k ≠ q) → d[q]? = dst[q]?)
  · exact ⟨rfl, by intro i k hk; omega, fun _ _ => rfl⟩
  · rintro N d hN ⟨hl, hv, hfr⟩
    refine (copyLoop src (f N) (g N) m d (fun k hk => hf N k hN hk)
      (fun k hk => by rw [hl]; exact hg N k hN hk)
      (fun k k' hk hk' h => (inj N k N k' hN hk hN hk' h).2)).mono ?_
    rintro d' ⟨hl', hv', hfr'⟩
    refine ⟨by omega, ?_, ?_⟩
    · intro i k hi hk
      by_cases hiN : i = N
      · subst hiN; exact hv' k hk
      · rw [hfr' (g i k) ?_]
        · exact hv i k (by omega) hk
        · intro k' hk' h
          exact hiN (inj N k' i k hN hk' (by omega) hk h).1.symm
    · intro q hq
      rw [hfr' q (fun k hk => hq N k (by omega) hk)]
      exact hfr q (fun i k hi hk => hq i k (by omega) hk)

end Verif

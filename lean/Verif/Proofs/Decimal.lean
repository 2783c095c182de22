import Mathlib.Tactic.Linarith
import Mathlib.Tactic.NormNum
import Mathlib.Tactic.FieldSimp
import Mathlib.Tactic.Push
import Verif.Model.Decimal
import Verif.Proofs.Dump

/-
Numbers written with six decimals and read back.
-/

namespace Verif.Dump

open Verif.Text Verif.Spec

theorem digitChar_digit (n : Nat) : isDigit (Nat.digitChar (n % 10)) = true := by
  have h : n % 10 < 10 := Nat.mod_lt _ (by decide)
  generalize n % 10 = k at h
  have : ∀ k < 10, isDigit (Nat.digitChar k) = true := by decide
  exact this k h

theorem digitChar_val (n : Nat) : (Nat.digitChar (n % 10)).toNat - '0'.toNat = n % 10 := by
  have h : n % 10 < 10 := Nat.mod_lt _ (by decide)
  generalize n % 10 = k at h
  have : ∀ k < 10, (Nat.digitChar k).toNat - '0'.toNat = k := by decide
  exact this k h

/-- The six decimals. -/
def sixDigits (m : Nat) : List Char := [100000, 10000, 1000, 100, 10, 1].map fun p => Nat.digitChar (m / p % 10)

theorem sixDigits_digit (m : Nat) : ∀ c ∈ sixDigits m, isDigit c = true := by
  intro c hc
  unfold sixDigits at hc
  rw [List.mem_map] at hc
  obtain ⟨p, _, rfl⟩ := hc
  exact digitChar_digit _

theorem decimal_sixDigits (m : Nat) : decimal (sixDigits m) = m % 1000000 := by
  unfold decimal sixDigits
  simp only [List.map_cons, List.map_nil, List.foldl_cons, List.foldl_nil, digitChar_val]
  omega

theorem dropWhile_all_append {α : Type} {p : α → Bool} {l r : List α} (h : ∀ x ∈ l, p x = true) :
    (l ++ r).dropWhile p = r.dropWhile p := by
  induction l with
  | nil => rfl
  | cons a l ih =>
    rw [List.cons_append, List.dropWhile_cons_of_pos (h a (by simp)), ih fun x hx => h x (by simp [hx])]

theorem takeWhile_all_append {α : Type} {p : α → Bool} {l r : List α} (h : ∀ x ∈ l, p x = true) :
    (l ++ r).takeWhile p = l ++ r.takeWhile p := by
  induction l with
  | nil => rfl
  | cons a l ih =>
    rw [List.cons_append, List.takeWhile_cons_of_pos (h a (by simp)), ih fun x hx => h x (by simp [hx])]
    rfl

theorem readDecimal_floatText (neg : Bool) (m : Nat) :
    readDecimal (floatText neg m) = (if neg then -1 else 1) * ((m : ℚ) / 1000000) := by
  have hall : ∀ c ∈ natText (m / 1000000), isDigit c = true := fun c => digit_of_natText
  have hbody : ∀ sgn : ℚ, sgn * ((decimal ((natText (m / 1000000) ++ '.' :: sixDigits m).takeWhile isDigit) : ℚ) +
      (decimal (match (natText (m / 1000000) ++ '.' :: sixDigits m).dropWhile isDigit with
        | '.' :: r => r.takeWhile isDigit
        | _ => []) : ℚ) / 10 ^ (match (natText (m / 1000000) ++ '.' :: sixDigits m).dropWhile isDigit with
        | '.' :: r => r.takeWhile isDigit
        | _ => []).length) = sgn * ((m : ℚ) / 1000000) := by
    intro sgn
    rw [takeWhile_all_append hall, dropWhile_all_append hall,
      List.takeWhile_cons_of_neg (by decide), List.dropWhile_cons_of_neg (by decide), List.append_nil,
      decimal_natText]
    show sgn * (_ + (decimal ((sixDigits m).takeWhile isDigit) : ℚ) /
      10 ^ ((sixDigits m).takeWhile isDigit).length) = _
    rw [takeWhile_all (sixDigits_digit m), decimal_sixDigits]
    have hl : (sixDigits m).length = 6 := rfl
    rw [hl]
    have hm := Nat.div_add_mod m 1000000
    have : (m : ℚ) = 1000000 * ((m / 1000000 : Nat) : ℚ) + ((m % 1000000 : Nat) : ℚ) := by
      exact_mod_cast hm.symm
    rw [this]
    norm_num
    left
    ring
  have hne : natText (m / 1000000) ≠ [] := Nat.toDigits_ne_nil
  cases neg with
  | true =>
    have e : floatText true m = '-' :: (natText (m / 1000000) ++ '.' :: sixDigits m) := by
      simp [floatText, sixDigits]
    rw [e]
    unfold readDecimal
    rw [List.dropWhile_cons_of_neg (by decide)]
    exact hbody (-1)
  | false =>
    have e : floatText false m = natText (m / 1000000) ++ '.' :: sixDigits m := by
      simp [floatText, sixDigits]
    rw [e]
    cases hs : natText (m / 1000000) with
    | nil => exact absurd hs hne
    | cons c r =>
      have hc : isDigit c = true := hall c (by rw [hs]; simp)
      unfold readDecimal
      rw [List.cons_append, List.dropWhile_cons_of_neg (by rw [isDigit_not_space hc]; simp)]
      dsimp only
      rw [isDigit_not_sign hc]
      have hh : (c :: (r ++ '.' :: sixDigits m)).head? ≠ some '-' := by
        intro h
        cases h
        exact absurd hc (by decide)
      rw [if_neg hh]
      have hb := hbody 1
      rw [hs, List.cons_append] at hb
      exact hb

theorem millionths_near (x : ℚ) : abs ((millionths x : ℚ) / 1000000 - |x|) ≤ 1 / 2000000 := by
  have h0 : (0 : ℚ) ≤ |x| * 1000000 := by positivity
  have hf : (0 : ℤ) ≤ ⌊|x| * 1000000⌋ := Int.floor_nonneg.mpr h0
  have hn : ((⌊|x| * 1000000⌋.toNat : Nat) : ℚ) = (⌊|x| * 1000000⌋ : ℚ) := by
    have := Int.toNat_of_nonneg hf
    exact_mod_cast this
  have h1 := Int.floor_le (|x| * 1000000)
  have h2 := Int.lt_floor_add_one (|x| * 1000000)
  unfold millionths
  dsimp only
  rw [hn]
  rw [abs_le]
  split
  · rw [hn]; constructor <;> linarith
  · split
    · push_cast; rw [hn]; constructor <;> linarith
    · split
      · rw [hn]; constructor <;> linarith
      · push_cast; rw [hn]; constructor <;> linarith

theorem millionths_exact (m : Nat) (x : ℚ) (h : |x| = (m : ℚ) / 1000000) : millionths x = m := by
  unfold millionths
  have e : |x| * 1000000 = (m : ℚ) := by rw [h]; field_simp
  rw [e]
  simp

theorem trip_six (x : ℚ) :
    trip sixDecimals x = (if x < 0 then -1 else 1) * ((millionths x : ℚ) / 1000000) := by
  show readDecimal (floatText _ _) = _
  rw [readDecimal_floatText]
  by_cases h : x < 0 <;> simp [h]

end Verif.Dump

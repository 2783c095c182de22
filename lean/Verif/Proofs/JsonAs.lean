import Verif.Spec.JsonAs
import Verif.Proofs.Number
import Verif.Proofs.Decimal

/-
The extraction of integers accepts exactly the decimal integers.
-/

namespace Verif.Num

open Verif.Spec

/-- What the extraction of an integer stores for a sign and digits, and whether it succeeds, apart from the rest of
the text. -/
def intOutcome (t : IntType) (neg : Bool) (n : ℤ) (done : Bool) : Bool × Option ℤ :=
  if neg && t.signed then
    if -n < t.lo then (false, some t.lo) else (done, some (-n))
  else if t.hi < n then (false, some t.hi)
  else (done, some (if neg then (-n) % 2 ^ t.bits else n))

theorem convertInt_eq (t : IntType) {a sg ds r : List Char} {b : Bool} (ha : ∀ c ∈ a, IsBlank c)
    (hs : Sign sg (if b then -1 else 1)) (hne : ds ≠ []) (hd : ∀ c ∈ ds, IsDigit c) (hr : NoDigit r) :
    convertInt t (a ++ (sg ++ ds) ++ r) = intOutcome t b (natOf ds) r.isEmpty := by
  have hd' : ∀ c ∈ ds, isDigit c = true := fun c hc => isDigit_iff.2 (hd c hc)
  obtain ⟨d, ds', rfl⟩ := List.exists_cons_of_ne_nil hne
  have hn : NoSign (d :: ds' ++ r) := by
    intro c hc
    simp only [List.cons_append, List.head?_cons, Option.mem_def, Option.some.injEq] at hc
    exact hc ▸ digit_noSign (hd' d (by simp))
  obtain ⟨b', hb, hb'⟩ := takeSign_sign hs hn
  have hbb : b' = b := by
    cases b <;> cases b' <;> simp at hb' ⊢
  subst hbb
  obtain ⟨c, s, hcs, hc⟩ : ∃ c s, sg ++ (d :: ds' ++ r) = c :: s ∧ isSpace c = false := by
    rcases hs with ⟨rfl, -⟩ | ⟨rfl, -⟩ | ⟨rfl, -⟩
    · refine ⟨d, ds' ++ r, rfl, ?_⟩
      have := hd d (by simp)
      simp only [IsDigit, List.mem_cons, List.not_mem_nil, or_false] at this
      rcases this with rfl | rfl | rfl | rfl | rfl | rfl | rfl | rfl | rfl | rfl <;> decide
    · exact ⟨'+', _, rfl, by decide⟩
    · exact ⟨'-', _, rfl, by decide⟩
  have hdrop : (a ++ (sg ++ d :: ds') ++ r).dropWhile isSpace = sg ++ (d :: ds' ++ r) := by
    rw [show a ++ (sg ++ d :: ds') ++ r = a ++ (sg ++ (d :: ds' ++ r)) by simp]
    exact dropWhile_blanks ha hcs hc
  obtain ⟨h1, h2⟩ := takeWhile_digits hd' hr
  have he : (sg ++ (d :: ds' ++ r)).isEmpty = false := by rw [hcs]; rfl
  simp only [convertInt, hdrop, he, hb, h1, h2, digitsVal_eq, intOutcome, Bool.false_eq_true, if_false,
    List.isEmpty_cons]

theorem sign_bool {sg : List Char} {f : ℤ} (h : Sign sg f) : ∃ b : Bool, f = if b then -1 else 1 := by
  rcases h with ⟨-, rfl⟩ | ⟨-, rfl⟩ | ⟨-, rfl⟩
  · exact ⟨false, rfl⟩
  · exact ⟨false, rfl⟩
  · exact ⟨true, rfl⟩

/-- An integer the type holds, after blanks. -/
theorem convertInt_holds {t : IntType} {a n r : List Char} {i : ℤ} (ha : ∀ c ∈ a, IsBlank c) (hn : IntNumeral n i)
    (hr : NoDigit r) (hi : IntType.Holds t i) : convertInt t (a ++ n ++ r) = (r.isEmpty, some i) := by
  obtain ⟨sg, f, ds, hs, hne, hd, rfl, rfl⟩ := hn
  obtain ⟨b, rfl⟩ := sign_bool hs
  rw [convertInt_eq t ha hs hne hd hr]
  obtain ⟨sgn, bits⟩ := t
  have hp : (0 : ℤ) < 2 ^ bits := by positivity
  cases sgn <;> cases b <;> simp [IntType.Holds, intOutcome, IntType.lo, IntType.hi] at hi ⊢
  · omega
  · have : natOf ds = 0 := by omega
    rw [this]
    simp
    omega
  · omega
  · omega

/-- The conversion fails, leaving the nearest integer of the type, for an integer outside the range of a signed
type. -/
theorem convertInt_outside {t : IntType} (ht : t.signed = true) {a n r : List Char} {i : ℤ}
    (ha : ∀ c ∈ a, IsBlank c) (hn : IntNumeral n i) (hr : NoDigit r) (hi : ¬ IntType.Holds t i) :
    convertInt t (a ++ n ++ r) = (false, some (if i < 0 then -2 ^ (t.bits - 1) else 2 ^ (t.bits - 1) - 1)) := by
  obtain ⟨sg, f, ds, hs, hne, hd, rfl, rfl⟩ := hn
  obtain ⟨b, rfl⟩ := sign_bool hs
  rw [convertInt_eq t ha hs hne hd hr]
  obtain ⟨sgn, bits⟩ := t
  have hp : (0 : ℤ) < 2 ^ (bits - 1) := by positivity
  simp only at ht
  subst ht
  cases b <;> simp [IntType.Holds, intOutcome, IntType.lo, IntType.hi] at hi ⊢
  · have h1 : ¬ ((natOf ds : ℤ) < 0) := by omega
    have h2 : (2 : ℤ) ^ (bits - 1) - 1 < natOf ds := by have := hi (by omega); omega
    simp [h2]
  · have h1 : (2 : ℤ) ^ (bits - 1) < natOf ds := by
      by_contra h
      have := hi (by omega)
      omega
    have h2 : natOf ds ≠ 0 := by
      intro h
      rw [h] at h1
      simp at h1
      omega
    simp [h1]
    omega

/-- A negative integer read as an unsigned one. -/
theorem convertInt_wraps {t : IntType} (ht : t.signed = false) {a n r : List Char} {i : ℤ}
    (ha : ∀ c ∈ a, IsBlank c) (hn : IntNumeral n i) (hr : NoDigit r) (hi : i < 0) (hi' : -2 ^ t.bits < i) :
    convertInt t (a ++ n ++ r) = (r.isEmpty, some (2 ^ t.bits + i)) := by
  obtain ⟨sg, f, ds, hs, hne, hd, rfl, rfl⟩ := hn
  obtain ⟨b, rfl⟩ := sign_bool hs
  rw [convertInt_eq t ha hs hne hd hr]
  obtain ⟨sgn, bits⟩ := t
  simp only at ht
  subst ht
  cases b <;> simp [intOutcome, IntType.hi] at hi hi' ⊢
  · omega
  · have h1 : ¬ ((2 : ℤ) ^ bits ≤ natOf ds) := by omega
    have h2 : (-(natOf ds : ℤ)) % 2 ^ bits = 2 ^ bits + -(natOf ds : ℤ) := by
      rw [← Int.add_mul_emod_self_left _ _ 1, Int.emod_eq_of_lt] <;> omega
    simp [h2]
    intro h
    omega

/-- The conversion succeeds exactly for the integers of the type, after blanks, and for the integers below 0 that
wrap around in an unsigned type. -/
theorem convertInt_iff {t : IntType} {s : List Char} {v : Option ℤ} :
    convertInt t s = (true, v) ↔ ∃ a n i, (∀ c ∈ a, IsBlank c) ∧ IntNumeral n i ∧ s = a ++ n ∧
      ((IntType.Holds t i ∧ v = some i) ∨
        (t.signed = false ∧ i < 0 ∧ -2 ^ t.bits < i ∧ v = some (2 ^ t.bits + i))) := by
  constructor
  · intro h
    set u := s.dropWhile isSpace with hu
    have hs : s = s.takeWhile isSpace ++ u := List.takeWhile_append_dropWhile.symm
    have ha : ∀ c ∈ s.takeWhile isSpace, IsBlank c := fun c hc => isSpace_iff.1 (by
      simpa using List.all_eq_true.1 (List.all_takeWhile (p := isSpace) (l := s)) c hc)
    obtain ⟨h1, h2⟩ := takeSign_spec u
    set sg := takeSign u with hsg
    have h3 : sg.2.2 = sg.2.2.takeWhile isDigit ++ sg.2.2.dropWhile isDigit := List.takeWhile_append_dropWhile.symm
    have hd : ∀ c ∈ sg.2.2.takeWhile isDigit, IsDigit c := fun c hc => isDigit_iff.1 (takeWhile_all _ c hc)
    have hr := noDigit_dropWhile sg.2.2
    generalize sg.2.2.takeWhile isDigit = ds at h3 hd
    generalize sg.2.2.dropWhile isDigit = r at h3 hr
    by_cases hne : ds = []
    · exfalso
      subst hne
      rw [List.nil_append] at h3
      have : sg.2.2.takeWhile isDigit = [] := by
        rw [h3]
        have := (takeWhile_digits (ds := []) (by simp) hr).1
        simpa using this
      simp only [convertInt, ← hu, ← hsg, this] at h
      split at h <;> simp at h
    · have hs' : s = s.takeWhile isSpace ++ (sg.1 ++ ds) ++ r := by
        rw [List.append_assoc, List.append_assoc, ← h3, ← h1, ← hs]
      generalize s.takeWhile isSpace = a at hs' ha
      have he := convertInt_eq t ha h2 hne hd hr
      rw [← hs', h] at he
      have hrn : r = [] := by
        unfold intOutcome at he
        split at he <;> split at he <;> simp at he <;> exact he.1
      subst hrn
      refine ⟨a, sg.1 ++ ds, (if sg.2.1 then -1 else 1) * natOf ds, ha, ⟨sg.1, _, ds, h2, hne, hd, rfl, rfl⟩,
        by rw [hs', List.append_nil], ?_⟩
      generalize sg.2.1 = b at he
      obtain ⟨sgn, bits⟩ := t
      have hp : (0 : ℤ) < 2 ^ (bits - 1) := by positivity
      have hp' : (0 : ℤ) < 2 ^ bits := by positivity
      cases sgn <;> cases b <;> simp [intOutcome, IntType.lo, IntType.hi, IntType.Holds] at he ⊢
      · split at he
        · simp at he
        · simp at he
          exact .inl ⟨by omega, he⟩
      · split at he
        · simp at he
        · next hlt =>
          simp at he
          by_cases h0 : natOf ds = 0
          · left
            simp [h0] at he ⊢
            exact he
          · right
            have h4 : (-(natOf ds : ℤ)) % 2 ^ bits = 2 ^ bits + -(natOf ds : ℤ) := by
              rw [← Int.add_mul_emod_self_left _ _ 1, Int.emod_eq_of_lt] <;> omega
            exact ⟨by omega, by omega, by rw [he, h4]⟩
      · split at he
        · simp at he
        · simp at he
          exact ⟨⟨by omega, by omega⟩, he⟩
      · split at he
        · simp at he
        · simp at he
          exact ⟨⟨by omega, by omega⟩, he⟩
  · rintro ⟨a, n, i, ha, hn, rfl, ⟨hi, rfl⟩ | ⟨ht, h0, hi, rfl⟩⟩
    · have := convertInt_holds ha hn (r := []) (by simp [NoDigit]) hi
      simpa using this
    · have := convertInt_wraps ht ha hn (r := []) (by simp [NoDigit]) h0 hi
      simpa using this

theorem blanks_noDigit {b : List Char} (h : ∀ c ∈ b, IsBlank c) : NoDigit b := fun c hc => (blanks_end h c hc).1

end Verif.Num

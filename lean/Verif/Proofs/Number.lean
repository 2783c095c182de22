import Verif.Model.Number
import Verif.Spec.Number
import Mathlib.Tactic.Ring
import Mathlib.Tactic.FieldSimp
import Mathlib.Tactic.IntervalCases
import Mathlib.Data.List.Forall2

/-
The extraction of numbers accepts exactly the decimal numerals.
-/

namespace Verif.Num

open Verif.Spec

theorem isDigit_iff {c : Char} : isDigit c = true ↔ IsDigit c := by
  constructor
  · intro h
    simp only [isDigit, Bool.and_eq_true, decide_eq_true_eq] at h
    have h1 : 48 ≤ c.toNat := h.1
    have h2 : c.toNat ≤ 57 := h.2
    have hc : c = Char.ofNat c.toNat := (Char.ofNat_toNat c).symm
    rw [hc]
    generalize c.toNat = n at h1 h2
    unfold IsDigit
    interval_cases n <;> decide
  · intro h
    simp only [IsDigit, List.mem_cons, List.not_mem_nil, or_false] at h
    rcases h with rfl | rfl | rfl | rfl | rfl | rfl | rfl | rfl | rfl | rfl <;> decide

theorem isSpace_iff {c : Char} : isSpace c = true ↔ IsBlank c := by
  simp [isSpace, IsBlank, or_assoc]

theorem digitsVal_append (a b : List Char) : digitsVal (a ++ b) = digitsVal a * 10 ^ b.length + digitsVal b := by
  induction b using List.reverseRecOn with
  | nil => simp [digitsVal]
  | append_singleton b c ih =>
    have h : ∀ l, digitsVal (l ++ [c]) = 10 * digitsVal l + (c.toNat - 48) := fun l => by simp [digitsVal]
    rw [← List.append_assoc, h, ih, h, List.length_append, List.length_singleton, pow_succ]
    ring

theorem digitsVal_eq (ds : List Char) : digitsVal ds = natOf ds := by
  induction ds using List.reverseRecOn with
  | nil => simp [digitsVal, natOf]
  | append_singleton b c ih =>
    have h : digitsVal (b ++ [c]) = 10 * digitsVal b + (c.toNat - 48) := by simp [digitsVal]
    rw [h, ih]
    simp only [natOf, List.reverse_append, List.reverse_singleton, List.singleton_append, List.map_cons,
      Nat.ofDigits_cons]
    have : '0'.toNat = 48 := rfl
    simp only [this, Nat.cast_id]
    omega

theorem digitsVal_zeros {zs : List Char} (h : ∀ c ∈ zs, c = '0') (b : List Char) :
    digitsVal (zs ++ b) = digitsVal b := by
  rw [digitsVal_append]
  have : digitsVal zs = 0 := by
    induction zs using List.reverseRecOn with
    | nil => rfl
    | append_singleton b c ih =>
      have h' : digitsVal (b ++ [c]) = 10 * digitsVal b + (c.toNat - 48) := by simp [digitsVal]
      rw [h', ih fun x hx => h x (by simp [hx]), h c (by simp)]
      rfl
  rw [this]; simp

/-! ### Signs -/

theorem takeSign_spec (s : List Char) :
    s = (takeSign s).1 ++ (takeSign s).2.2 ∧ Sign (takeSign s).1 (if (takeSign s).2.1 then -1 else 1) := by
  unfold takeSign
  split <;> simp [Sign]

/-- The text does not begin with a sign. -/
def NoSign (s : List Char) : Prop := ∀ c ∈ s.head?, c ≠ '+' ∧ c ≠ '-'

theorem takeSign_of {s : List Char} (h : NoSign s) : takeSign s = ([], false, s) := by
  unfold takeSign
  split
  · exact absurd rfl (h '+' (by simp)).1
  · exact absurd rfl (h '-' (by simp)).2
  · rfl

theorem takeSign_sign {sg r : List Char} {f : ℤ} (hs : Sign sg f) (h : NoSign r) :
    ∃ b, takeSign (sg ++ r) = (sg, b, r) ∧ f = if b then -1 else 1 := by
  rcases hs with ⟨rfl, rfl⟩ | ⟨rfl, rfl⟩ | ⟨rfl, rfl⟩
  · exact ⟨false, takeSign_of h, rfl⟩
  · exact ⟨false, rfl, rfl⟩
  · exact ⟨true, rfl, rfl⟩

theorem digit_noSign {c : Char} (h : isDigit c = true) : c ≠ '+' ∧ c ≠ '-' := by
  constructor <;> (rintro rfl; exact absurd h (by decide))

/-! ### Splitting off digits -/

/-- The text does not begin with a digit. -/
def NoDigit (s : List Char) : Prop := ∀ c ∈ s.head?, isDigit c = false

theorem takeWhile_digits {ds r : List Char} (h : ∀ c ∈ ds, isDigit c = true) (hr : NoDigit r) :
    (ds ++ r).takeWhile isDigit = ds ∧ (ds ++ r).dropWhile isDigit = r := by
  induction ds with
  | nil =>
    cases r with
    | nil => simp
    | cons c r => have := hr c (by simp); simp [this]
  | cons d ds ih =>
    have := ih fun c hc => h c (by simp [hc])
    simp [h d (by simp), this]

theorem noDigit_dropWhile (s : List Char) : NoDigit (s.dropWhile isDigit) := by
  intro c hc
  induction s with
  | nil => simp at hc
  | cons d s ih =>
    by_cases hd : isDigit d = true
    · rw [List.dropWhile_cons_of_pos hd] at hc; exact ih hc
    · rw [List.dropWhile_cons_of_neg hd] at hc
      simp only [List.head?_cons, Option.mem_def, Option.some.injEq] at hc
      rw [← hc]; simpa using hd

theorem takeWhile_all (s : List Char) : ∀ c ∈ s.takeWhile isDigit, isDigit c = true :=
  fun _ hc => by simpa using List.all_eq_true.1 (List.all_takeWhile (p := isDigit) (l := s)) _ hc

/-! ### Fractions and exponents -/

theorem takeFraction_spec {s : List Char} :
    ∃ fr, s = fr ++ (takeFraction s).2 ∧ Fraction fr (takeFraction s).1 := by
  unfold takeFraction
  split
  · next s => exact ⟨'.' :: s.takeWhile isDigit, by simp [List.takeWhile_append_dropWhile],
      fun c hc => isDigit_iff.1 (takeWhile_all _ _ hc), .inr rfl⟩
  · exact ⟨[], by simp, by simp, .inl ⟨rfl, rfl⟩⟩

theorem takeFraction_of {fr fp r : List Char} (h : Fraction fr fp) (hr : NoDigit r) (hd : r.head? ≠ some '.') :
    takeFraction (fr ++ r) = (fp, r) := by
  obtain ⟨h1, ⟨rfl, rfl⟩ | rfl⟩ := h
  · unfold takeFraction
    split
    · next h => simp at h; simp [h] at hd
    · rfl
  · have := takeWhile_digits (fun c hc => isDigit_iff.2 (h1 c hc)) hr
    simp [takeFraction, this]

theorem takeExponent_spec {s : List Char} :
    ∃ ex, s = ex ++ (takeExponent s).2 ∧ Exponent ex (takeExponent s).1 := by
  cases s with
  | nil => exact ⟨[], rfl, .inl ⟨rfl, rfl⟩⟩
  | cons c s =>
    simp only [takeExponent]
    split
    · next hc =>
      split
      · exact ⟨[], rfl, .inl ⟨rfl, rfl⟩⟩
      · next hd =>
        obtain ⟨h1, h2⟩ := takeSign_spec s
        refine ⟨c :: ((takeSign s).1 ++ (takeSign s).2.2.takeWhile isDigit), ?_,
          .inr ⟨c, _, _, _, by simpa using hc, h2, ?_, fun d hd => isDigit_iff.1 (takeWhile_all _ _ hd), rfl, ?_⟩⟩
        · simp only [List.cons_append, List.append_assoc, List.takeWhile_append_dropWhile]
          rw [← h1]
        · simpa using hd
        · rw [digitsVal_eq]
    · exact ⟨[], rfl, .inl ⟨rfl, rfl⟩⟩

theorem takeExponent_of {ex : List Char} {k : ℤ} (h : Exponent ex k) : takeExponent ex = (k, []) := by
  rcases h with ⟨rfl, rfl⟩ | ⟨e, sg, f, ds, he, hs, hn, hd, rfl, rfl⟩
  · rfl
  · have hns : NoSign ds := by
      intro c hc
      exact digit_noSign (isDigit_iff.2 (hd c (List.mem_of_mem_head? hc)))
    obtain ⟨b, hb, rfl⟩ := takeSign_sign hs hns
    have ht := takeWhile_digits (ds := ds) (r := []) (fun c hc => isDigit_iff.2 (hd c hc)) (by simp [NoDigit])
    rw [List.append_nil] at ht
    have he' : (e == 'e' || e == 'E') = true := by simpa using he
    simp only [takeExponent, he', if_true, hb, ht, digitsVal_eq]
    simp [hn]

theorem exponent_head {ex : List Char} {k : ℤ} (h : Exponent ex k) :
    NoDigit ex ∧ ex.head? ≠ some '.' ∧ NoSign ex := by
  rcases h with ⟨rfl, rfl⟩ | ⟨e, sg, f, ds, rfl | rfl, hs, hn, hd, rfl, rfl⟩ <;> simp [NoDigit, NoSign] <;> decide

theorem fraction_head {fr fp r : List Char} (h : Fraction fr fp) (hr : NoDigit r) : NoDigit (fr ++ r) := by
  obtain ⟨h1, ⟨rfl, rfl⟩ | rfl⟩ := h
  · exact hr
  · intro c hc; simp at hc; rw [← hc]; rfl

theorem fraction_sign {fr fp r : List Char} (h : Fraction fr fp) (hr : NoSign r) : NoSign (fr ++ r) := by
  obtain ⟨h1, ⟨rfl, rfl⟩ | rfl⟩ := h
  · exact hr
  · intro c hc; simp at hc; rw [← hc]; decide

theorem value_eq (ip fp : List Char) (k : ℤ) :
    ((digitsVal (ip ++ fp) : ℕ) : ℚ) * 10 ^ (k - (fp.length : ℤ)) =
      (natOf ip + natOf fp / 10 ^ fp.length) * 10 ^ k := by
  rw [digitsVal_append, digitsVal_eq, digitsVal_eq, zpow_sub₀ (by norm_num), zpow_natCast]
  push_cast
  field_simp

/-- `strtod` takes the whole text exactly if it is a numeral. -/
theorem strtod_iff {s : List Char} {q : ℚ} : strtod s = some (q, []) ↔ Numeral s q := by
  constructor
  · intro h
    obtain ⟨h1, h2⟩ := takeSign_spec s
    simp only [strtod] at h
    split at h
    · cases h
    next hne =>
    simp only [Option.some.injEq, Prod.mk.injEq] at h
    obtain ⟨hq, hr⟩ := h
    obtain ⟨fr, hf1, hf2⟩ := takeFraction_spec (s := (takeSign s).2.2.dropWhile isDigit)
    obtain ⟨ex, he1, he2⟩ := takeExponent_spec
      (s := (takeFraction ((takeSign s).2.2.dropWhile isDigit)).2)
    rw [hr, List.append_nil] at he1
    refine ⟨_, _, (takeSign s).2.2.takeWhile isDigit, fr, _, ex, _, h2,
      fun c hc => isDigit_iff.1 (takeWhile_all _ _ hc), hf2, ?_, he2, ?_, ?_⟩
    · simpa using hne
    · rw [List.append_assoc, ← he1, List.append_assoc, ← hf1, List.takeWhile_append_dropWhile, ← h1]
    · rw [← hq, mul_assoc, value_eq]
      push_cast
      split <;> simp
  · rintro ⟨sg, f, ip, fr, fp, ex, k, hs, hip, hfr, hne, hex, rfl, rfl⟩
    obtain ⟨hx1, hx2, hx3⟩ := exponent_head hex
    have hns : NoSign (ip ++ (fr ++ ex)) := by
      intro c hc
      cases ip with
      | nil => exact fraction_sign hfr hx3 c hc
      | cons d ip =>
        simp at hc; rw [← hc]
        exact digit_noSign (isDigit_iff.2 (hip d (by simp)))
    obtain ⟨b, hb, rfl⟩ := takeSign_sign hs hns
    have ht := takeWhile_digits (fun c hc => isDigit_iff.2 (hip c hc)) (fraction_head hfr hx1)
    have he := takeFraction_of hfr hx1 hx2
    have hk := takeExponent_of hex
    have hne' : (ip ++ fp).isEmpty = false := by simpa using hne
    simp only [strtod, List.append_assoc, hb, ht, he, hk, hne']
    simp only [Bool.false_eq_true, if_false, Option.some.injEq, Prod.mk.injEq, and_true]
    rw [mul_assoc, value_eq]
    split <;> simp

/-! ### Gathering -/

/-- The letter of an exponent as it is gathered. -/
def low (c : Char) : Char := if c = 'E' then 'e' else c

theorem gather_cons (m d x : Bool) (c : Char) (s : List Char) :
    gather m d x (c :: s) =
      if isDigit c then (c :: (gather true d x s).1, (gather true d x s).2)
      else if c == '.' && !d && !x then (c :: (gather m true x s).1, (gather m true x s).2)
      else if (c == 'e' || c == 'E') && !x && m then
        ('e' :: ((takeSign s).1 ++ (gather m d true (takeSign s).2.2).1), (gather m d true (takeSign s).2.2).2)
      else ([], c :: s) := by
  rw [gather.eq_def]
  dsimp only
  split
  · rfl
  split
  · rfl
  split
  · unfold takeSign
    split <;> rfl
  · rfl

theorem takeSign_length (s : List Char) : (takeSign s).2.2.length ≤ s.length := by
  conv_rhs => rw [(takeSign_spec s).1]
  simp

theorem sign_low {sg : List Char} {f : ℤ} (h : Sign sg f) : sg.map low = sg := by
  rcases h with ⟨rfl, rfl⟩ | ⟨rfl, rfl⟩ | ⟨rfl, rfl⟩ <;> rfl

theorem gather_split (m d x : Bool) (s : List Char) :
    ∃ p, s = p ++ (gather m d x s).2 ∧ (gather m d x s).1 = p.map low := by
  induction hn : s.length using Nat.strong_induction_on generalizing m d x s with
  | _ n ih =>
  subst hn
  cases s with
  | nil => exact ⟨[], by simp [gather]⟩
  | cons c s =>
    rw [gather_cons]
    split
    · next hc =>
      obtain ⟨p, h1, h2⟩ := ih s.length (by simp) true d x s rfl
      refine ⟨c :: p, by simp [← h1], ?_⟩
      have : low c = c := by
        unfold low; split
        · next h => subst h; exact absurd hc (by decide)
        · rfl
      simp [h2, this]
    split
    · next hc =>
      obtain ⟨p, h1, h2⟩ := ih s.length (by simp) m true x s rfl
      have hc' : c = '.' := by simp at hc; exact hc.1.1
      subst hc'
      exact ⟨'.' :: p, by simp [← h1], by simp [h2, low]⟩
    split
    · next hc =>
      have hl : low c = 'e' := by
        simp at hc
        rcases hc.1.1 with rfl | rfl <;> rfl
      obtain ⟨h3, h4⟩ := takeSign_spec s
      obtain ⟨p, h1, h2⟩ := ih (takeSign s).2.2.length
        (by have := takeSign_length s; simp only [List.length_cons]; omega) m d true _ rfl
      refine ⟨c :: ((takeSign s).1 ++ p), ?_, ?_⟩
      · simp only [List.cons_append, List.append_assoc, ← h1, ← h3]
      · simp only [List.map_cons, List.map_append, hl, sign_low h4, h2]
    · exact ⟨[], by simp⟩

/-! ### What is gathered has the same value -/

theorem digit_low (c : Char) : isDigit (low c) = isDigit c := by
  unfold low
  split
  · next h => subst h; rfl
  · rfl

theorem digit_low_eq {c : Char} (h : isDigit c = true) : low c = c := by
  unfold low; split
  · next h' => subst h'; exact absurd h (by decide)
  · rfl

theorem takeWhile_low (s : List Char) : (s.map low).takeWhile isDigit = s.takeWhile isDigit ∧
    (s.map low).dropWhile isDigit = (s.dropWhile isDigit).map low := by
  induction s with
  | nil => simp
  | cons c s ih =>
    by_cases hc : isDigit c = true
    · have h' : isDigit (low c) = true := by rw [digit_low, hc]
      rw [List.map_cons, List.takeWhile_cons_of_pos h', List.takeWhile_cons_of_pos hc,
        List.dropWhile_cons_of_pos h', List.dropWhile_cons_of_pos hc, ih.1, ih.2, digit_low_eq hc]
      simp
    · have h' : ¬ isDigit (low c) = true := by rw [digit_low]; exact hc
      rw [List.map_cons, List.takeWhile_cons_of_neg h', List.takeWhile_cons_of_neg hc,
        List.dropWhile_cons_of_neg h', List.dropWhile_cons_of_neg hc]
      simp

theorem low_eq_iff {c d : Char} (h1 : d ≠ 'e') (h2 : d ≠ 'E') : low c = d ↔ c = d := by
  unfold low
  split
  · next h => subst h; exact ⟨fun h => absurd h.symm h1, fun h => absurd h.symm h2⟩
  · rfl

theorem takeFraction_low (s : List Char) :
    takeFraction (s.map low) = ((takeFraction s).1, (takeFraction s).2.map low) := by
  cases s with
  | nil => rfl
  | cons c s =>
    by_cases hc : c = '.'
    · subst hc
      have := takeWhile_low s
      show takeFraction ('.' :: s.map low) = _
      simp only [takeFraction, this]
    · have hl : low c ≠ '.' := fun h => hc ((low_eq_iff (by decide) (by decide)).1 h)
      unfold takeFraction
      split
      · next h => simp at h; exact absurd h.1 hl
      · split
        · next h => simp at h; exact absurd h.1 hc
        · rfl

theorem takeSign_low (s : List Char) :
    takeSign (s.map low) = ((takeSign s).1, (takeSign s).2.1, (takeSign s).2.2.map low) := by
  cases s with
  | nil => rfl
  | cons c s =>
    by_cases h1 : c = '+'
    · subst h1; rfl
    by_cases h2 : c = '-'
    · subst h2; rfl
    have hl1 : low c ≠ '+' := fun h => h1 ((low_eq_iff (by decide) (by decide)).1 h)
    have hl2 : low c ≠ '-' := fun h => h2 ((low_eq_iff (by decide) (by decide)).1 h)
    rw [takeSign_of (s := c :: s) (by intro d hd; simp at hd; subst hd; exact ⟨h1, h2⟩),
      takeSign_of (by intro d hd; simp at hd; subst hd; exact ⟨hl1, hl2⟩)]

theorem takeExponent_low (s : List Char) :
    takeExponent (s.map low) = ((takeExponent s).1, (takeExponent s).2.map low) := by
  cases s with
  | nil => rfl
  | cons c s =>
    have hc : (low c == 'e' || low c == 'E') = (c == 'e' || c == 'E') := by
      unfold low
      split
      · next h => subst h; rfl
      · rfl
    simp only [List.map_cons, takeExponent, hc, takeSign_low, takeWhile_low]
    split
    · split <;> simp
    · simp

theorem strtod_low (s : List Char) :
    strtod (s.map low) = (strtod s).map fun r => (r.1, r.2.map low) := by
  simp only [strtod, takeSign_low, takeWhile_low, takeFraction_low, takeExponent_low]
  split <;> simp

theorem zeros_all (s : List Char) : ∀ c ∈ s.takeWhile (· == '0'), c = '0' :=
  fun c hc => by simpa using List.all_eq_true.1 (List.all_takeWhile (p := (· == '0')) (l := s)) c hc

theorem takeWhile_zeros {zs : List Char} (h : ∀ c ∈ zs, c = '0') (r : List Char) :
    (zs ++ r).takeWhile isDigit = zs ++ r.takeWhile isDigit ∧ (zs ++ r).dropWhile isDigit = r.dropWhile isDigit := by
  induction zs with
  | nil => simp
  | cons z zs ih =>
    have hz := h z (by simp)
    subst hz
    have hd : isDigit '0' = true := rfl
    have := ih fun c hc => h c (by simp [hc])
    simp [hd, this]

/-- Dropping all but one of the leading zeros does not change the number. -/
theorem strtod_zeros {sg : List Char} {f : ℤ} (hs : Sign sg f) {zs : List Char} (hz : ∀ c ∈ zs, c = '0')
    (hne : zs ≠ []) (r : List Char) : strtod (sg ++ ('0' :: r)) = strtod (sg ++ (zs ++ r)) := by
  have n1 : NoSign ('0' :: r) := by intro c hc; simp at hc; subst hc; decide
  have n2 : NoSign (zs ++ r) := by
    cases zs with
    | nil => exact absurd rfl hne
    | cons z zs => intro c hc; simp at hc; subst hc; rw [hz z (by simp)]; decide
  obtain ⟨b, hb, hf⟩ := takeSign_sign hs n1
  obtain ⟨b', hb', hf'⟩ := takeSign_sign hs n2
  have hbb : b = b' := by
    cases b <;> cases b' <;> simp_all <;> omega
  subst hbb
  have h0 := takeWhile_zeros hz r
  have h1 := takeWhile_zeros (zs := ['0']) (by simp) r
  rw [List.singleton_append] at h1
  simp only [strtod, hb, hb', h0, h1]
  have e1 : (['0'] ++ r.takeWhile isDigit ++ (takeFraction (r.dropWhile isDigit)).1).isEmpty = false := rfl
  have e2 : (zs ++ r.takeWhile isDigit ++ (takeFraction (r.dropWhile isDigit)).1).isEmpty = false := by
    cases zs with
    | nil => exact absurd rfl hne
    | cons z zs => rfl
  rw [e1, e2]
  simp only [List.append_assoc, digitsVal_zeros hz, digitsVal_zeros (zs := ['0']) (by simp)]

/-- What `num_get` gathers has the value of what it takes from the text. -/
theorem numGet_spec (s : List Char) :
    ∃ p, s = p ++ (numGet s).2 ∧ strtod (numGet s).1 = (strtod p).map fun r => (r.1, r.2.map low) := by
  obtain ⟨h1, h2⟩ := takeSign_spec s
  have hz := zeros_all (takeSign s).2.2
  have hzd : (takeSign s).2.2.takeWhile (· == '0') ++ (takeSign s).2.2.dropWhile (· == '0') = (takeSign s).2.2 :=
    List.takeWhile_append_dropWhile
  simp only [numGet]
  generalize (takeSign s).2.2.takeWhile (· == '0') = zs at hz hzd ⊢
  generalize (takeSign s).2.2.dropWhile (· == '0') = r at hzd ⊢
  obtain ⟨p, hp1, hp2⟩ := gather_split (!zs.isEmpty) false false r
  refine ⟨(takeSign s).1 ++ (zs ++ p), ?_, ?_⟩
  · rw [List.append_assoc, List.append_assoc, ← hp1, hzd, ← h1]
  · rw [hp2, ← strtod_low, List.map_append, List.map_append, sign_low h2]
    by_cases hne : zs = []
    · subst hne; simp
    · have hz' : zs.map low = zs := by
        conv_rhs => rw [← List.map_id zs]
        refine List.map_congr_left fun c hc => ?_
        rw [hz c hc]; rfl
      rw [hz', ← strtod_zeros h2 hz hne]
      simp [hne]

/-! ### All of a numeral is gathered -/

/-- The text does not go on like a number. -/
def Ends (t : List Char) : Prop := ∀ c ∈ t.head?, isDigit c = false ∧ c ≠ '.' ∧ c ≠ 'e' ∧ c ≠ 'E'

theorem gather_stop {t : List Char} (h : Ends t) (m d x : Bool) : gather m d x t = ([], t) := by
  cases t with
  | nil => simp [gather]
  | cons c t =>
    obtain ⟨h1, h2, h3, h4⟩ := h c (by simp)
    rw [gather_cons]
    simp [h1, h2, h3, h4]

theorem gather_digits {ds : List Char} (h : ∀ c ∈ ds, isDigit c = true) (m d x : Bool) (t : List Char) :
    (gather m d x (ds ++ t)).2 = (gather (m || !ds.isEmpty) d x t).2 := by
  induction ds generalizing m with
  | nil => simp
  | cons c ds ih =>
    rw [List.cons_append, gather_cons, if_pos (h c (by simp)), ih fun c hc => h c (by simp [hc])]
    simp

theorem gather_fraction {fr fp : List Char} (h : Fraction fr fp) (m : Bool) (t : List Char) :
    ∃ d, (gather m false false (fr ++ t)).2 = (gather (m || !fp.isEmpty) d false t).2 := by
  obtain ⟨h1, ⟨rfl, rfl⟩ | rfl⟩ := h
  · exact ⟨false, by simp⟩
  · refine ⟨true, ?_⟩
    rw [List.cons_append, gather_cons]
    have : isDigit '.' = false := rfl
    simp only [this, Bool.false_eq_true, if_false]
    simp only [beq_self_eq_true, Bool.not_false, Bool.and_self, if_true]
    rw [gather_digits fun c hc => isDigit_iff.2 (h1 c hc)]

theorem gather_exponent {ex : List Char} {k : ℤ} (h : Exponent ex k) (d : Bool) {t : List Char} (ht : Ends t) :
    (gather true d false (ex ++ t)).2 = t := by
  rcases h with ⟨rfl, rfl⟩ | ⟨e, sg, f, ds, he, hs, hn, hd, rfl, rfl⟩
  · rw [List.nil_append, gather_stop ht]
  · rw [List.cons_append, gather_cons]
    have h1 : isDigit e = false := by rcases he with rfl | rfl <;> rfl
    have h2 : (e == '.') = false := by rcases he with rfl | rfl <;> rfl
    have h3 : (e == 'e' || e == 'E') = true := by rcases he with rfl | rfl <;> rfl
    have hns : NoSign (ds ++ t) := by
      cases ds with
      | nil => exact absurd rfl hn
      | cons c ds => intro c' hc; simp at hc; subst hc; exact digit_noSign (isDigit_iff.2 (hd c (by simp)))
    obtain ⟨b, hb, -⟩ := takeSign_sign hs hns
    rw [List.append_assoc, hb]
    simp only [h1, h2, h3]
    simp only [Bool.false_eq_true, if_false, Bool.false_and, Bool.not_false, Bool.and_self, if_true]
    rw [gather_digits fun c hc => isDigit_iff.2 (hd c hc), gather_stop ht]

theorem numGet_numeral {n : List Char} {q : ℚ} (h : Numeral n q) {t : List Char} (ht : Ends t) :
    (numGet (n ++ t)).2 = t := by
  obtain ⟨sg, f, ip, fr, fp, ex, k, hs, hip, hfr, hne, hex, rfl, rfl⟩ := h
  obtain ⟨hx1, hx2, hx3⟩ := exponent_head hex
  have hns : NoSign (ip ++ (fr ++ (ex ++ t))) := by
    cases ip with
    | cons c ip => intro c' hc; simp at hc; subst hc; exact digit_noSign (isDigit_iff.2 (hip c (by simp)))
    | nil =>
      obtain ⟨h1, ⟨rfl, rfl⟩ | rfl⟩ := hfr
      · exact absurd rfl hne
      · intro c hc; simp at hc; subst hc; decide
  obtain ⟨b, hb, -⟩ := takeSign_sign hs hns
  have hsplit : ip = ip.takeWhile (· == '0') ++ ip.dropWhile (· == '0') := List.takeWhile_append_dropWhile.symm
  have hf0 : ∀ c ∈ (fr ++ (ex ++ t)).head?, (c == '0') = false := by
    intro c hc
    obtain ⟨h1, ⟨rfl, rfl⟩ | rfl⟩ := hfr
    · rcases hex with ⟨rfl, rfl⟩ | ⟨e, sg, f, ds, rfl | rfl, -, -, -, rfl, -⟩
      · have := (ht c hc).1
        by_contra h0
        have : c = '0' := by simpa using h0
        subst this
        simp [isDigit] at *
      · simp at hc; subst hc; rfl
      · simp at hc; subst hc; rfl
    · simp at hc; subst hc; rfl
  have hw : ∀ r : List Char, (∀ c ∈ r.head?, (c == '0') = false) →
      (ip ++ r).takeWhile (· == '0') = ip.takeWhile (· == '0') ∧
      (ip ++ r).dropWhile (· == '0') = ip.dropWhile (· == '0') ++ r := by
    intro r hr
    clear hsplit hns hip hne hb
    induction ip with
    | nil =>
      cases r with
      | nil => simp
      | cons c r => have := hr c (by simp); simp [this]
    | cons c ip ih =>
      by_cases hc : (c == '0') = true
      · have := ih
        simp [hc, this]
      · simp [hc]
  obtain ⟨hw1, hw2⟩ := hw _ hf0
  simp only [numGet, List.append_assoc, hb, hw1, hw2]
  rw [gather_digits fun c hc => isDigit_iff.2 (hip c ?_)]
  · obtain ⟨d, hd⟩ := gather_fraction hfr (!(ip.takeWhile (· == '0')).isEmpty ||
      !(ip.dropWhile (· == '0')).isEmpty) (ex ++ t)
    rw [hd]
    have hm : (!(ip.takeWhile (· == '0')).isEmpty || !(ip.dropWhile (· == '0')).isEmpty || !fp.isEmpty) = true := by
      by_contra hcon
      simp only [Bool.or_eq_true, Bool.not_eq_true', not_or, Bool.not_eq_false, List.isEmpty_iff] at hcon
      apply hne
      rw [hsplit, hcon.1.1, hcon.1.2, hcon.2]
      rfl
    rw [hm, gather_exponent hex d ht]
  · rw [hsplit]; exact List.mem_append_right _ hc

/-! ### The conversion -/

theorem numeral_head {n : List Char} {q : ℚ} (h : Numeral n q) : ∃ c s, n = c :: s ∧ isSpace c = false := by
  obtain ⟨sg, f, ip, fr, fp, ex, k, hs, hip, hfr, hne, hex, rfl, rfl⟩ := h
  have hd : ∀ c, IsDigit c → isSpace c = false := by
    intro c hc
    simp only [IsDigit, List.mem_cons, List.not_mem_nil, or_false] at hc
    rcases hc with rfl | rfl | rfl | rfl | rfl | rfl | rfl | rfl | rfl | rfl <;> rfl
  rcases hs with ⟨rfl, rfl⟩ | ⟨rfl, rfl⟩ | ⟨rfl, rfl⟩
  · cases ip with
    | cons c ip => exact ⟨c, ip ++ fr ++ ex, by simp, hd c (hip c (by simp))⟩
    | nil =>
      obtain ⟨h1, ⟨rfl, rfl⟩ | rfl⟩ := hfr
      · exact absurd rfl hne
      · exact ⟨'.', fp ++ ex, by simp, rfl⟩
  · exact ⟨'+', ip ++ fr ++ ex, by simp, rfl⟩
  · exact ⟨'-', ip ++ fr ++ ex, by simp, rfl⟩

theorem dropWhile_blanks {a n : List Char} (ha : ∀ c ∈ a, IsBlank c) {c : Char} {s : List Char} (hn : n = c :: s)
    (hc : isSpace c = false) : (a ++ n).dropWhile isSpace = n := by
  subst hn
  induction a with
  | nil => simp [hc]
  | cons d a ih => simp [isSpace_iff.2 (ha d (by simp)), ih fun c hc => ha c (by simp [hc])]

/-- A numeral after blanks and before a text that does not go on like a number. -/
theorem convertNum_numeral {a n t : List Char} {q : ℚ} (ha : ∀ c ∈ a, IsBlank c) (hn : Numeral n q) (ht : Ends t) :
    convertNum (a ++ n ++ t) = (t.isEmpty, some q) := by
  obtain ⟨c, s, hcs, hc⟩ := numeral_head hn
  have hd : (a ++ n ++ t).dropWhile isSpace = n ++ t := by
    rw [List.append_assoc]
    exact dropWhile_blanks (c := c) (s := s ++ t) ha (by simp [hcs]) hc
  have hg := numGet_numeral hn ht
  obtain ⟨p, hp1, hp2⟩ := numGet_spec (n ++ t)
  rw [hg] at hp1
  have hpn : p = n := (List.append_cancel_right hp1).symm
  subst hpn
  rw [strtod_iff.2 hn] at hp2
  simp only [Option.map_some, List.map_nil] at hp2
  have hne : (p ++ t).isEmpty = false := by simp [hcs]
  simp only [convertNum, hd, hne, Bool.false_eq_true, if_false, hg, hp2]

/-- The conversion succeeds exactly for numerals after blanks. -/
theorem convertNum_iff {s : List Char} {v : Option ℚ} :
    convertNum s = (true, v) ↔ ∃ a n q, (∀ c ∈ a, IsBlank c) ∧ Numeral n q ∧ s = a ++ n ∧ v = some q := by
  constructor
  · intro h
    have hs : s = s.takeWhile isSpace ++ s.dropWhile isSpace := List.takeWhile_append_dropWhile.symm
    obtain ⟨p, hp1, hp2⟩ := numGet_spec (s.dropWhile isSpace)
    simp only [convertNum] at h
    split at h
    · simp at h
    split at h
    · next q heq =>
      simp only [Prod.mk.injEq, List.isEmpty_iff] at h
      obtain ⟨h1, rfl⟩ := h
      rw [h1, List.append_nil] at hp1
      rw [hp2] at heq
      rw [← hp1] at heq
      cases hst : strtod (s.dropWhile isSpace) with
      | none => simp [hst] at heq
      | some r =>
        rw [hst] at heq
        simp only [Option.map_some, Option.some.injEq, Prod.mk.injEq, List.map_eq_nil_iff] at heq
        refine ⟨s.takeWhile isSpace, s.dropWhile isSpace, q, fun c hc => isSpace_iff.1 ?_, strtod_iff.1 ?_, hs, rfl⟩
        · simpa using List.all_eq_true.1 (List.all_takeWhile (p := isSpace) (l := s)) c hc
        · rw [hst, ← heq.1, ← heq.2]
    · simp at h
  · rintro ⟨a, n, q, ha, hn, rfl, rfl⟩
    have := convertNum_numeral ha hn (t := []) (by simp [Ends])
    simpa using this

theorem blanks_end {b : List Char} (h : ∀ c ∈ b, IsBlank c) : Ends b := by
  intro c hc
  have := h c (List.mem_of_mem_head? hc)
  simp only [IsBlank, List.mem_cons, List.not_mem_nil, or_false] at this
  rcases this with rfl | rfl | rfl | rfl | rfl | rfl <;> decide

theorem asNum_padded {s : List Char} {q : ℚ} (h : Padded s q) : asNum s = .ok q := by
  obtain ⟨a, n, b, ha, hn, hb, rfl⟩ := h
  simp only [asNum, convertNum_numeral ha hn (blanks_end hb)]

/-- A text that spells a number spells only one. -/
theorem padded_unique {s : List Char} {q q' : ℚ} (h : Padded s q) (h' : Padded s q') : q = q' := by
  have := asNum_padded h
  rw [asNum_padded h'] at this
  exact (Exec.ok.inj this).symm

theorem collect_forall₂ {β γ : Type} {f : β → Exec γ} {l : List β} {m : List γ}
    (h : List.Forall₂ (fun x y => f x = .ok y) l m) : Data.collect f l = .ok m := by
  induction h with
  | nil => rfl
  | cons h _ ih => simp [Data.collect, h, ih]

end Verif.Num

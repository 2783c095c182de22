import Verif.Spec.TypeChecker

namespace Verif.Text

open Verif.Spec

theorem matches_nil {r : Re} : r.nullable = true ↔ Matches r [] := by
  constructor
  · intro h
    induction r with
    | none => cases h
    | eps => exact .eps
    | cls p => cases h
    | seq r s ihr ihs =>
      simp only [Re.nullable, Bool.and_eq_true] at h
      exact Matches.seq (s := []) (u := []) (ihr h.1) (ihs h.2)
    | alt r s ihr ihs =>
      simp only [Re.nullable, Bool.or_eq_true] at h
      rcases h with h | h
      · exact .left (ihr h)
      · exact .right (ihs h)
    | star r _ => exact .stop
  · intro h
    generalize hs : ([] : List Char) = s at h
    induction h with
    | eps => rfl
    | cls _ => cases hs
    | @seq _ _ s u _ _ ih1 ih2 =>
      have := List.append_eq_nil_iff.mp hs.symm
      simp only [Re.nullable, Bool.and_eq_true]
      exact ⟨ih1 this.1.symm, ih2 this.2.symm⟩
    | left _ ih => simp only [Re.nullable, Bool.or_eq_true]; exact .inl (ih hs)
    | right _ ih => simp only [Re.nullable, Bool.or_eq_true]; exact .inr (ih hs)
    | stop => rfl
    | more _ _ _ _ => rfl

theorem deriv_matches {c : Char} {cs : List Char} {r : Re} :
    Matches (r.deriv c) cs ↔ Matches r (c :: cs) := by
  constructor
  · intro h
    induction r generalizing cs with
    | none => cases h
    | eps => cases h
    | cls p =>
      unfold Re.deriv at h
      split at h
      · cases h; exact .cls (by assumption)
      · cases h
    | seq r s ihr ihs =>
      unfold Re.deriv at h
      split at h
      · rename_i hn
        cases h with
        | left h =>
          cases h with
          | @seq _ _ a b h1 h2 => exact Matches.seq (s := c :: a) (ihr h1) h2
        | right h => exact Matches.seq (s := []) (matches_nil.mp hn) (ihs h)
      · cases h with
        | @seq _ _ a b h1 h2 => exact Matches.seq (s := c :: a) (ihr h1) h2
    | alt r s ihr ihs =>
      cases h with
      | left h => exact .left (ihr h)
      | right h => exact .right (ihs h)
    | star r ih =>
      cases h with
      | @seq _ _ a b h1 h2 => exact Matches.more (s := c :: a) (ih h1) h2
  · intro h
    generalize hs : c :: cs = s at h
    induction h generalizing cs with
    | eps => cases hs
    | @cls p d hp =>
      cases hs
      unfold Re.deriv
      rw [if_pos hp]
      exact .eps
    | @seq r t s u h1 h2 ih1 ih2 =>
      unfold Re.deriv
      cases s with
      | nil =>
        rw [if_pos (matches_nil.mpr h1)]
        exact .right (ih2 hs)
      | cons d s =>
        rw [List.cons_append] at hs
        cases hs
        have := Matches.seq (ih1 rfl) h2
        split
        · exact .left this
        · exact this
    | left _ ih => exact .left (ih hs)
    | right _ ih => exact .right (ih hs)
    | stop => cases hs
    | @more r s u h1 h2 ih1 ih2 =>
      cases s with
      | nil => exact ih2 hs
      | cons d s =>
        rw [List.cons_append] at hs
        cases hs
        exact .seq (ih1 rfl) h2

/-- The matcher decides the language of the expression. -/
theorem accepts_iff (r : Re) (s : List Char) : r.accepts s = true ↔ Matches r s := by
  induction s generalizing r with
  | nil => exact matches_nil
  | cons c cs ih => exact (ih (r.deriv c)).trans deriv_matches

theorem m_seq {r t : Re} {s : List Char} :
    Matches (.seq r t) s ↔ ∃ a b, s = a ++ b ∧ Matches r a ∧ Matches t b := by
  constructor
  · intro h
    cases h with
    | @seq _ _ a b h1 h2 => exact ⟨a, b, rfl, h1, h2⟩
  · rintro ⟨a, b, rfl, h1, h2⟩
    exact .seq h1 h2

theorem m_alt {r t : Re} {s : List Char} : Matches (.alt r t) s ↔ Matches r s ∨ Matches t s :=
  ⟨fun h => by cases h with | left h => exact .inl h | right h => exact .inr h,
    fun h => h.elim .left .right⟩

theorem m_cls {p : Char → Bool} {s : List Char} : Matches (.cls p) s ↔ ∃ c, s = [c] ∧ p c = true :=
  ⟨fun h => by cases h; exact ⟨_, rfl, by assumption⟩, fun ⟨c, h, hp⟩ => h ▸ .cls hp⟩

theorem m_eps {s : List Char} : Matches .eps s ↔ s = [] :=
  ⟨fun h => by cases h; rfl, fun h => h ▸ .eps⟩

theorem m_opt {r : Re} {s : List Char} : Matches (opt r) s ↔ s = [] ∨ Matches r s := by
  rw [opt, m_alt, m_eps]

theorem m_chr {c : Char} {s : List Char} : Matches (chr c) s ↔ s = [c] := by
  rw [chr, m_cls]
  simp only [beq_iff_eq]
  exact ⟨fun ⟨d, h, e⟩ => e ▸ h, fun h => ⟨c, h, rfl⟩⟩

theorem m_lit : ∀ {cs s : List Char}, Matches (lit cs) s ↔ s = cs := by
  intro cs
  induction cs with
  | nil => intro s; exact m_eps
  | cons c cs ih =>
    intro s
    rw [lit, m_seq]
    constructor
    · rintro ⟨a, b, rfl, h1, h2⟩
      rw [m_chr.mp h1, ih.mp h2]
      rfl
    · rintro rfl
      exact ⟨[c], cs, rfl, m_chr.mpr rfl, ih.mpr rfl⟩

theorem m_star_cls {p : Char → Bool} {s : List Char} :
    Matches (.star (.cls p)) s ↔ ∀ c ∈ s, p c = true := by
  constructor
  · intro h
    generalize hr : Re.star (.cls p) = r at h
    induction h with
    | eps | cls _ | seq _ _ _ _ | left _ _ | right _ _ => cases hr
    | stop => intro c hc; cases hc
    | more h1 _ _ ih =>
      cases hr
      obtain ⟨c, rfl, hp⟩ := m_cls.mp h1
      intro d hd
      rcases List.mem_cons.mp hd with rfl | hd
      · exact hp
      · exact ih rfl d hd
  · intro h
    induction s with
    | nil => exact .stop
    | cons c s ih =>
      exact Matches.more (s := [c]) (.cls (h c (by simp))) (ih fun d hd => h d (by simp [hd]))

theorem isDigit_iff (c : Char) : (decide ('0' ≤ c) && decide (c ≤ '9')) = true ↔ IsDigit c := by
  simp only [Bool.and_eq_true, decide_eq_true_eq, IsDigit]
  constructor
  · rintro ⟨h1, h2⟩
    have h1 : 48 ≤ c.toNat := h1
    have h2 : c.toNat ≤ 57 := h2
    have : c.toNat = 48 ∨ c.toNat = 49 ∨ c.toNat = 50 ∨ c.toNat = 51 ∨ c.toNat = 52 ∨ c.toNat = 53 ∨
        c.toNat = 54 ∨ c.toNat = 55 ∨ c.toNat = 56 ∨ c.toNat = 57 := by omega
    have e : ∀ d : Char, c.toNat = d.toNat → c = d := fun d h => Char.toNat_inj.mp h
    rcases this with h | h | h | h | h | h | h | h | h | h
    · rw [e '0' h]; simp
    · rw [e '1' h]; simp
    · rw [e '2' h]; simp
    · rw [e '3' h]; simp
    · rw [e '4' h]; simp
    · rw [e '5' h]; simp
    · rw [e '6' h]; simp
    · rw [e '7' h]; simp
    · rw [e '8' h]; simp
    · rw [e '9' h]; simp
  · intro h
    simp only [List.mem_cons, List.not_mem_nil, or_false] at h
    rcases h with rfl | rfl | rfl | rfl | rfl | rfl | rfl | rfl | rfl | rfl <;> decide

theorem isDigit1_iff (c : Char) : (decide ('1' ≤ c) && decide (c ≤ '9')) = true ↔ IsDigit c ∧ c ≠ '0' := by
  rw [← isDigit_iff]
  simp only [Bool.and_eq_true, decide_eq_true_eq]
  have e1 : '1' ≤ c ↔ 49 ≤ c.toNat := Iff.rfl
  have e0 : '0' ≤ c ↔ 48 ≤ c.toNat := Iff.rfl
  have e : c = '0' ↔ c.toNat = 48 := (Char.toNat_inj (c := c) (d := '0')).symm
  rw [e1, e0, ne_eq, e]
  exact ⟨fun h => ⟨⟨by omega, h.2⟩, by omega⟩, fun h => ⟨by omega, h.1.2⟩⟩

theorem m_digits {s : List Char} : Matches (.star digit) s ↔ Digits s := by
  rw [digit, m_star_cls]
  simp only [isDigit_iff]
  rfl

theorem m_digits1 {s : List Char} : Matches (plus digit) s ↔ Digits s ∧ s ≠ [] := by
  rw [plus, m_seq]
  constructor
  · rintro ⟨a, b, rfl, h1, h2⟩
    obtain ⟨c, rfl, hc⟩ := m_cls.mp h1
    have := m_digits.mp h2
    refine ⟨?_, by simp⟩
    intro d hd
    rcases List.mem_cons.mp hd with rfl | hd
    · exact (isDigit_iff _).mp hc
    · exact this d hd
  · rintro ⟨h, hn⟩
    cases s with
    | nil => exact absurd rfl hn
    | cons c s =>
      exact ⟨[c], s, rfl, m_cls.mpr ⟨c, rfl, (isDigit_iff c).mpr (h c (by simp))⟩,
        m_digits.mpr fun d hd => h d (by simp [hd])⟩

theorem m_sign {s : List Char} : Matches signRe s ↔ IsSign s := by
  rw [signRe, m_opt, m_cls]
  unfold IsSign
  constructor
  · rintro (h | ⟨c, h, hc⟩)
    · exact .inl h
    · rw [Bool.or_eq_true, beq_iff_eq, beq_iff_eq] at hc
      rcases hc with rfl | rfl
      · exact .inr (.inl h)
      · exact .inr (.inr h)
  · rintro (h | h | h)
    · exact .inl h
    · exact .inr ⟨_, h, by decide⟩
    · exact .inr ⟨_, h, by decide⟩

theorem m_integer {s : List Char} : Matches integerRe s ↔ IsInteger s := by
  rw [integerRe, m_seq]
  constructor
  · rintro ⟨a, b, rfl, h1, h2⟩
    refine ⟨a, b, rfl, m_sign.mp h1, ?_⟩
    rcases m_alt.mp h2 with h | h
    · rw [m_chr.mp h]
      exact ⟨by intro c hc; simp at hc; subst hc; simp [IsDigit], .inl rfl⟩
    · obtain ⟨x, y, rfl, h3, h4⟩ := m_seq.mp h
      obtain ⟨c, rfl, hc⟩ := m_cls.mp h3
      have hc := (isDigit1_iff c).mp hc
      have hd := m_digits.mp h4
      refine ⟨?_, .inr ⟨c, y, rfl, hc.2⟩⟩
      intro d hd'
      rcases List.mem_cons.mp hd' with rfl | hd'
      · exact hc.1
      · exact hd d hd'
  · rintro ⟨a, b, rfl, h1, h2, h3⟩
    refine ⟨a, b, rfl, m_sign.mpr h1, m_alt.mpr ?_⟩
    rcases h3 with rfl | ⟨d, rest, rfl, hd⟩
    · exact .inl (m_chr.mpr rfl)
    · exact .inr (m_seq.mpr ⟨[d], rest, rfl, m_cls.mpr ⟨d, rfl, (isDigit1_iff d).mpr ⟨h2 d (by simp), hd⟩⟩,
        m_digits.mpr fun c hc => h2 c (by simp [hc])⟩)

theorem m_float {s : List Char} : Matches floatRe s ↔ IsNumeral s := by
  rw [floatRe]
  constructor
  · intro h
    obtain ⟨sign, r1, rfl, h1, h⟩ := m_seq.mp h
    obtain ⟨whole, r2, rfl, h2, h⟩ := m_seq.mp h
    obtain ⟨point, r3, rfl, h3, h⟩ := m_seq.mp h
    obtain ⟨frac, expo, rfl, h4, h⟩ := m_seq.mp h
    refine ⟨sign, whole, point, frac, expo, by simp, m_sign.mp h1, m_digits.mp h2, ?_, (m_digits1.mp h4).1,
      (m_digits1.mp h4).2, ?_⟩
    · exact (m_opt.mp h3).imp id m_chr.mp
    · refine (m_opt.mp h).imp id fun h => ?_
      obtain ⟨x, y, rfl, hx, hy⟩ := m_seq.mp h
      obtain ⟨e, rfl, he⟩ := m_cls.mp hx
      obtain ⟨esign, ds, rfl, hs, hd⟩ := m_seq.mp hy
      rw [Bool.or_eq_true, beq_iff_eq, beq_iff_eq] at he
      exact ⟨e, esign, ds, rfl, he, m_sign.mp hs, (m_digits1.mp hd).1, (m_digits1.mp hd).2⟩
  · rintro ⟨sign, whole, point, frac, expo, rfl, h1, h2, h3, h4, h5, h6⟩
    refine m_seq.mpr ⟨sign, whole ++ (point ++ (frac ++ expo)), by simp, m_sign.mpr h1, m_seq.mpr
      ⟨whole, _, rfl, m_digits.mpr h2, m_seq.mpr ⟨point, _, rfl, m_opt.mpr (h3.imp id m_chr.mpr), m_seq.mpr
        ⟨frac, expo, rfl, m_digits1.mpr ⟨h4, h5⟩, m_opt.mpr (h6.imp id ?_)⟩⟩⟩⟩
    rintro ⟨e, esign, ds, rfl, he, hs, hd, hn⟩
    refine m_seq.mpr ⟨[e], _, rfl, m_cls.mpr ⟨e, rfl, ?_⟩, m_seq.mpr ⟨esign, ds, rfl, m_sign.mpr hs,
      m_digits1.mpr ⟨hd, hn⟩⟩⟩
    rw [Bool.or_eq_true, beq_iff_eq, beq_iff_eq]
    exact he

theorem m_boolean {s : List Char} :
    Matches booleanRe s ↔ s = ['t', 'r', 'u', 'e'] ∨ s = ['f', 'a', 'l', 's', 'e'] := by
  rw [booleanRe, m_alt, m_lit, m_lit]

/-- A text that starts with a quote is neither a number nor a boolean. -/
theorem quoted_not_number {s : List Char} (h : Matches stringRe s) :
    ¬ IsInteger s ∧ ¬ IsNumeral s ∧ s ≠ ['t', 'r', 'u', 'e'] ∧ s ≠ ['f', 'a', 'l', 's', 'e'] ∧ s ≠ [] := by
  obtain ⟨a, b, rfl, h1, _⟩ := m_seq.mp h
  obtain rfl := m_chr.mp h1
  have hd : ∀ ds rest : List Char, Digits ds → '"' :: b = ds ++ rest → ds = [] := by
    intro ds rest h e
    cases ds with
    | nil => rfl
    | cons d ds =>
      rw [List.cons_append, List.cons.injEq] at e
      have := h d (by simp)
      rw [← e.1] at this
      simp [IsDigit] at this
  have hs : ∀ sign rest : List Char, IsSign sign → '"' :: b = sign ++ rest → sign = [] := by
    intro sign rest h e
    rcases h with rfl | rfl | rfl
    · rfl
    · rw [List.cons_append, List.cons.injEq] at e; exact absurd e.1 (by decide)
    · rw [List.cons_append, List.cons.injEq] at e; exact absurd e.1 (by decide)
  refine ⟨?_, ?_, by simp, by simp, by simp⟩
  · rintro ⟨sign, ds, e, h1, h2, h3⟩
    obtain rfl := hs _ _ h1 e
    have := hd ds [] h2 (by simpa using e)
    subst this
    rcases h3 with h3 | ⟨d, r, h3, _⟩ <;> cases h3
  · rintro ⟨sign, whole, point, frac, expo, e, h1, h2, h3, h4, h5, _⟩
    simp only [List.append_assoc, List.singleton_append] at e
    obtain rfl := hs _ _ h1 e
    rw [List.nil_append] at e
    obtain rfl := hd whole _ h2 e
    rw [List.nil_append] at e
    rcases h3 with rfl | rfl
    · exact h5 (hd frac _ h4 e)
    · rw [List.cons_append, List.cons.injEq] at e
      exact absurd e.1 (by decide)

end Verif.Text

import Verif.Spec.Json
import Verif.Proofs.TypeChecker
import Verif.Props.TypeChecker

namespace Verif.Js

open Verif.Text Verif.Spec

theorem print_none : print .none = [] := by rw [print]

theorem print_leaf (v : List Char) (t : Ty) :
    print (.leaf v t) = if t = .string then '"' :: (v ++ ['"']) else v := by rw [print]

theorem print_list (ts : List Json) : print (.list ts) = '[' :: (commas (ts.map print) ++ [']']) := by
  rw [print]

/-- The text of a field. -/
def field (p : Key × Json) : List Char := '"' :: (p.1 ++ '"' :: ':' :: print p.2)

theorem print_dict (m : List (Key × Json)) : print (.dict m) = '{' :: (commas (m.map field) ++ ['}']) := by
  rw [print]
  congr 3
  show (m.attach.map fun i => field i.val) = _
  simp

/-- A stream whose read position is between `pre` and `rem`. -/
def atPos (pre rem : List Char) : In := ⟨pre ++ rem, pre.length, false, false⟩

theorem on_at (t : List Char) : In.on t = atPos [] t := rfl

theorem read_at (pre : List Char) (c : Char) (rem : List Char) :
    (atPos pre (c :: rem)).read = (atPos (pre ++ [c]) rem, some c) := by
  simp [In.read, atPos, In.good]

theorem read_end (pre : List Char) :
    (atPos pre []).read = (⟨pre, pre.length, true, true⟩, .none) := by
  simp [In.read, atPos, In.good]

theorem back_at (pre w rem : List Char) : (atPos (pre ++ w) rem).back w.length = atPos pre (w ++ rem) := by
  simp [In.back, atPos]

theorem back_one (pre : List Char) (c : Char) (rem : List Char) :
    (atPos (pre ++ [c]) rem).back 1 = atPos pre (c :: rem) := back_at pre [c] rem

theorem takeWhile_ne {w r : List Char} {d : Char} (h : d ∉ w) :
    (w ++ d :: r).takeWhile (· ≠ d) = w := by
  rw [List.takeWhile_append_of_pos]
  · simp
  · intro c hc
    simp only [decide_eq_true_eq]
    rintro rfl
    exact h hc

theorem line_at {pre w r : List Char} {d : Char} (h : d ∉ w) :
    (atPos pre (w ++ d :: r)).line d = (atPos (pre ++ w ++ [d]) r, some w) := by
  have hd : (atPos pre (w ++ d :: r)).buf.drop (atPos pre (w ++ d :: r)).pos = w ++ d :: r := by simp [atPos]
  unfold In.line
  rw [if_pos (by rfl)]
  dsimp only
  rw [hd, takeWhile_ne h, if_pos (by simp)]
  simp [atPos, Nat.add_assoc]

theorem line_end {pre w : List Char} {d : Char} (h : d ∉ w) :
    (atPos pre w).line d = (⟨pre ++ w, (pre ++ w).length, true, w.isEmpty⟩, some w) := by
  have hd : (atPos pre w).buf.drop (atPos pre w).pos = w := by simp [atPos]
  have ht : w.takeWhile (· ≠ d) = w := by
    have := List.takeWhile_append_of_pos (p := fun x => decide (x ≠ d)) (l₁ := w) (l₂ := []) (by
      intro c hc
      simp only [decide_eq_true_eq]
      rintro rfl
      exact h hc)
    simpa using this
  unfold In.line
  rw [if_pos (by rfl)]
  dsimp only
  rw [hd, ht, if_neg (by simp)]
  simp [atPos]

/-- Looking for a character that stands ahead and going back leaves the stream as it was. -/
theorem peek {pre rem : List Char} {d : Char} (more : List Char) (h : d ∈ rem) :
    ((atPos pre rem).line d).1.back ((((atPos pre rem).line d).2.getD more).length + 1) = atPos pre rem := by
  obtain ⟨w, r, rfl, hw⟩ := List.eq_append_cons_of_mem h
  rw [line_at hw]
  show (atPos (pre ++ w ++ [d]) r).back (w.length + 1) = _
  have := back_at pre (w ++ [d]) r
  simpa using this

/-- What reading a value leaves, depending on the text that follows. -/
def Post (t : Json) (pre rest : List Char) (e : Exec (In × Json)) : Prop :=
  (∀ r, rest = ',' :: r → e = .ok (atPos (pre ++ print t ++ [',']) r, t)) ∧
    (∀ d r, rest = d :: r → d = ']' ∨ d = '}' → e = .ok (atPos (pre ++ print t) rest, t)) ∧
    (rest = [] → print t ≠ [] → ∃ s, e = .ok (s, t))

theorem skipComma_comma (pre r : List Char) (c : Option Char) :
    skipComma (atPos pre (',' :: r)) c = .ok (atPos (pre ++ [',']) r) := by
  unfold skipComma
  rw [if_neg (by simp [atPos]), read_at]
  rfl

theorem skipComma_other {pre r : List Char} {d : Char} (c : Option Char) (hd : d ≠ ',') :
    skipComma (atPos pre (d :: r)) c = .ok (atPos pre (d :: r)) := by
  unfold skipComma
  rw [if_neg (by simp [atPos]), read_at]
  show (if d ≠ ',' then Exec.ok ((atPos (pre ++ [d]) r).back 1) else _) = _
  rw [if_pos hd, back_one]

theorem skipComma_end (pre : List Char) (c : Char) : ∃ s, skipComma (atPos pre []) (some c) = .ok s := by
  unfold skipComma
  rw [if_neg (by simp [atPos]), read_end]
  show ∃ s, (if c ≠ ',' then Exec.ok (In.back _ 1) else Exec.ok _) = .ok s
  by_cases h : c = ','
  · exact ⟨_, by rw [if_neg (by simpa using h)]⟩
  · exact ⟨_, by rw [if_pos h]⟩

theorem digits_free {s : List Char} (h : Digits s) {c : Char} (hc : ¬ IsDigit c) : c ∉ s :=
  fun m => hc (h c m)

/-- The text of a scalar has none of the characters that structure a JSON text. -/
theorem scalar_free {v : List Char} (h : parseType v ≠ .string) {c : Char}
    (hc : c ∈ [',', ']', '}', '[', '{', '"']) : c ∉ v := by
  have hcl := Verif.Props.C52_classification v
  have hd : ¬ IsDigit c := by
    simp only [List.mem_cons, List.not_mem_nil, or_false] at hc
    rcases hc with rfl | rfl | rfl | rfl | rfl | rfl <;> simp [IsDigit]
  have hsg : ∀ s, IsSign s → c ∉ s := by
    simp only [List.mem_cons, List.not_mem_nil, or_false] at hc
    rintro s (rfl | rfl | rfl) <;> rcases hc with rfl | rfl | rfl | rfl | rfl | rfl <;> simp
  have hnum : IsNumeral v → c ∉ v := by
    rintro ⟨sign, whole, point, frac, expo, rfl, h1, h2, h3, h4, h5, h6⟩ hm
    simp only [List.mem_append] at hm
    rcases hm with (((hm | hm) | hm) | hm) | hm
    · exact hsg _ h1 hm
    · exact digits_free h2 hd hm
    · rcases h3 with rfl | rfl
      · simp at hm
      · simp only [List.mem_cons, List.not_mem_nil, or_false] at hc hm
        rcases hc with rfl | rfl | rfl | rfl | rfl | rfl <;> simp at hm
    · exact digits_free h4 hd hm
    · rcases h6 with rfl | ⟨e, es, ds, rfl, he, hes, hds, _⟩
      · simp at hm
      · rcases List.mem_cons.mp hm with hm | hm
        · simp only [List.mem_cons, List.not_mem_nil, or_false] at hc
          rcases he with rfl | rfl <;> rcases hc with rfl | rfl | rfl | rfl | rfl | rfl <;> simp at hm
        · rcases List.mem_append.mp hm with hm | hm
          · exact hsg _ hes hm
          · exact digits_free hds hd hm
  by_cases h0 : v = []
  · rw [h0]; simp
  by_cases hb : v = "true".toList ∨ v = "false".toList
  · simp only [List.mem_cons, List.not_mem_nil, or_false] at hc
    rcases hb with rfl | rfl <;> rcases hc with rfl | rfl | rfl | rfl | rfl | rfl <;> decide
  by_cases hi : IsInteger v
  · obtain ⟨sign, ds, rfl, h1, h2, _⟩ := hi
    intro hm
    rcases List.mem_append.mp hm with hm | hm
    · exact hsg _ h1 hm
    · exact digits_free h2 hd hm
  by_cases hn : IsNumeral v
  · exact hnum hn
  · exact absurd (hcl.2.2.2.2.mpr ⟨h0, fun e => hb (.inl e), fun e => hb (.inr e), hi, hn⟩) h

theorem closing_none {v : List Char} (h1 : ']' ∉ v) (h2 : '}' ∉ v) : closing v = .none := by
  unfold closing
  rw [List.findIdx?_eq_none_iff]
  intro c hc
  simp only [Bool.or_eq_false_iff, beq_eq_false_iff_ne]
  exact ⟨fun e => h1 (e ▸ hc), fun e => h2 (e ▸ hc)⟩

theorem closing_some {v w : List Char} {d : Char} (h1 : ']' ∉ v) (h2 : '}' ∉ v) (hd : d = ']' ∨ d = '}') :
    closing (v ++ d :: w) = some v.length := by
  have := closing_none h1 h2
  unfold closing at *
  rw [List.findIdx?_append, this, List.findIdx?_cons]
  rcases hd with rfl | rfl <;> simp

/-- Reading a quoted leaf. -/
theorem parseLeaf_text {v : List Char} (h : '"' ∉ v) (pre rest : List Char) :
    Post (.leaf v .string) pre rest (parseLeaf (atPos pre (print (.leaf v .string) ++ rest))) := by
  have hp : print (.leaf v .string) = '"' :: (v ++ ['"']) := by rw [print_leaf, if_pos rfl]
  have e : parseLeaf (atPos pre (print (.leaf v .string) ++ rest)) =
      (skipComma (atPos (pre ++ print (.leaf v .string)) rest) (some '"') >>= fun s =>
        Exec.ok (s, Json.leaf v .string)) := by
    rw [hp]
    unfold parseLeaf
    have hr : ('"' :: (v ++ ['"'])) ++ rest = '"' :: (v ++ '"' :: rest) := by simp
    rw [hr, read_at]
    simp only [useChar, Exec.bind_ok]
    rw [if_pos trivial, line_at h]
    simp
  rw [e]
  refine ⟨?_, ?_, ?_⟩
  · rintro r rfl
    rw [skipComma_comma]
    rfl
  · rintro d r rfl hd
    rw [skipComma_other _ (by rcases hd with rfl | rfl <;> decide)]
    rfl
  · rintro rfl _
    obtain ⟨s, hs⟩ := skipComma_end (pre ++ print (.leaf v .string)) '"'
    rw [hs]
    exact ⟨s, rfl⟩

/-- Reading an unquoted leaf. -/
theorem parseLeaf_scalar {v : List Char} (h : parseType v ≠ .string) (pre rest : List Char)
    (hne : v ≠ [] ∨ rest ≠ []) :
    Post (.leaf v (parseType v)) pre rest (parseLeaf (atPos pre (print (.leaf v (parseType v)) ++ rest))) := by
  have hp : print (.leaf v (parseType v)) = v := by rw [print_leaf, if_neg h]
  have f1 : ',' ∉ v := scalar_free h (by simp)
  have f2 : ']' ∉ v := scalar_free h (by simp)
  have f3 : '}' ∉ v := scalar_free h (by simp)
  have f4 : '"' ∉ v := scalar_free h (by simp)
  unfold Post
  rw [hp]
  have start : ∀ x xs, v ++ rest = x :: xs → x ≠ '"' →
      parseLeaf (atPos pre (v ++ rest)) = .ok (parseScalar (atPos pre (v ++ rest))) := by
    intro x xs hx hq
    unfold parseLeaf
    rw [hx, read_at]
    simp only [useChar, Exec.bind_ok]
    rw [if_neg hq, back_one]
  unfold parseScalar at start
  dsimp only at start
  refine ⟨?_, ?_, ?_⟩
  · rintro r rfl
    have : ∃ x xs, v ++ ',' :: r = x :: xs ∧ x ≠ '"' := by
      cases v with
      | nil => exact ⟨_, _, rfl, by decide⟩
      | cons a v => exact ⟨a, _, rfl, fun e => f4 (by simp [e])⟩
    obtain ⟨x, xs, hx, hq⟩ := this
    rw [start x xs hx hq, line_at f1]
    dsimp only [Option.getD_some]
    rw [closing_none f2 f3]
  · rintro d r rfl hd
    have hdq : d ≠ '"' ∧ d ≠ ',' := by rcases hd with rfl | rfl <;> decide
    have : ∃ x xs, v ++ d :: r = x :: xs ∧ x ≠ '"' := by
      cases v with
      | nil => exact ⟨_, _, rfl, hdq.1⟩
      | cons a v => exact ⟨a, _, rfl, fun e => f4 (by simp [e])⟩
    obtain ⟨x, xs, hx, hq⟩ := this
    rw [start x xs hx hq]
    by_cases hc : ',' ∈ r
    · obtain ⟨w, r', rfl, hw⟩ := List.eq_append_cons_of_mem hc
      have hw' : ',' ∉ v ++ d :: w := by
        simp only [List.mem_append, List.mem_cons, not_or]
        exact ⟨f1, fun e => hdq.2 e.symm, hw⟩
      have e : v ++ d :: (w ++ ',' :: r') = (v ++ d :: w) ++ ',' :: r' := by simp
      rw [e, line_at hw']
      dsimp only [Option.getD_some]
      rw [closing_some f2 f3 hd]
      dsimp only
      rw [if_neg (by simp [atPos]), back_one, List.take_left' rfl]
      have e2 : atPos (pre ++ (v ++ d :: w)) (',' :: r') = atPos ((pre ++ v) ++ (d :: w)) (',' :: r') := by
        rw [List.append_assoc]
      have e3 : (v ++ d :: w).length - v.length = (d :: w).length := by simp
      rw [e2, e3, back_at]
      simp
    · have hw' : ',' ∉ v ++ d :: r := by
        simp only [List.mem_append, List.mem_cons, not_or]
        exact ⟨f1, fun e => hdq.2 e.symm, hc⟩
      rw [line_end hw']
      dsimp only [Option.getD_some]
      rw [closing_some f2 f3 hd]
      dsimp only
      rw [if_pos rfl, List.take_left' rfl]
      have e3 : (v ++ d :: r).length - v.length = (d :: r).length := by simp
      rw [e3]
      have e4 : (⟨pre ++ (v ++ d :: r), (pre ++ (v ++ d :: r)).length, true, (v ++ d :: r).isEmpty⟩ : In).back
          (d :: r).length = atPos (pre ++ v) (d :: r) := by
        have : (v ++ d :: r).isEmpty = false := by simp
        rw [this]
        simp only [In.back, atPos, List.append_assoc, List.length_append, List.length_cons, Bool.false_eq_true,
          if_false]
        rw [if_pos (by omega)]
        congr 1
        omega
      rw [e4]
  · rintro rfl hv
    cases v with
    | nil => exact absurd rfl hv
    | cons a v =>
      rw [start a (v ++ []) rfl (fun e => f4 (by simp [e])), List.append_nil, line_end f1]
      dsimp only [Option.getD_some]
      rw [closing_none f2 f3]
      exact ⟨_, rfl⟩

/-! ### Order of keys -/

theorem keyLt_irrefl : ∀ k : Key, keyLt k k = false
  | [] => rfl
  | a :: as => by simp [keyLt, keyLt_irrefl as]

theorem keyLt_asymm : ∀ {a b : Key}, keyLt a b = true → keyLt b a = false
  | [], [], h => by cases h
  | [], _ :: _, _ => rfl
  | _ :: _, [], h => by cases h
  | a :: as, b :: bs, h => by
    unfold keyLt at *
    by_cases h1 : a.toNat < b.toNat
    · rw [if_neg (by omega), if_pos h1]
    · rw [if_neg h1] at h
      by_cases h2 : b.toNat < a.toNat
      · rw [if_pos h2] at h; cases h
      · rw [if_neg h2] at h
        rw [if_neg h2, if_neg h1]
        exact keyLt_asymm h

theorem mapPut_last {α : Type} {m : List (Key × α)} {k : Key} {v : α} (h : ∀ p ∈ m, keyLt p.1 k = true) :
    mapPut m k v = m ++ [(k, v)] := by
  induction m with
  | nil => rfl
  | cons p m ih =>
    obtain ⟨k', v'⟩ := p
    have hk : keyLt k' k = true := h (k', v') (by simp)
    unfold mapPut
    rw [if_neg, if_neg, ih fun q hq => h q (by simp [hq])]
    · rfl
    · rw [keyLt_asymm hk]; decide
    · rintro rfl
      rw [keyLt_irrefl] at hk
      cases hk

/-! ### Lists and dictionaries -/

/-- The first character of a written value. -/
theorem print_head {t : Json} (h : Plain t) :
    (print t = [] ∧ t = .leaf [] .none) ∨ ∃ c r, print t = c :: r ∧ c ≠ ']' ∧ c ≠ '}' := by
  cases h with
  | text _ => exact .inr ⟨'"', _, by rw [print_leaf, if_pos rfl], by decide, by decide⟩
  | @scalar v ty hp hs =>
    subst hp
    rw [print_leaf, if_neg hs]
    cases v with
    | nil => exact .inl ⟨rfl, rfl⟩
    | cons c r =>
      have f2 : ']' ∉ c :: r := scalar_free hs (by simp)
      have f3 : '}' ∉ c :: r := scalar_free hs (by simp)
      exact .inr ⟨c, r, rfl, fun e => f2 (by simp [e]), fun e => f3 (by simp [e])⟩
  | list _ _ _ => exact .inr ⟨'[', _, print_list _, by decide, by decide⟩
  | dict _ _ _ _ => exact .inr ⟨'{', _, print_dict _, by decide, by decide⟩

theorem commas_cons (t u : List Char) (ts : List (List Char)) :
    commas (t :: u :: ts) = t ++ ',' :: commas (u :: ts) := rfl

theorem listLoop_spec {item : In → Exec (In × Json)} {ts : List Json} (hn : ts ≠ [])
    (hp : ∀ t ∈ ts, Plain t) (hl : 2 ≤ ts.length → ts.getLast? ≠ some (.leaf [] .none))
    (hi : ∀ t ∈ ts, ∀ pre rest, rest ≠ [] → Post t pre rest (item (atPos pre (print t ++ rest))))
    {n : Nat} (hf : ts.length ≤ n) (pre rest : List Char) (c : Option Char) (more : List Char)
    (acc : List Json) :
    listLoop item n (atPos pre (commas (ts.map print) ++ ']' :: rest)) c more acc =
      .ok (atPos (pre ++ commas (ts.map print) ++ [']']) rest, some ']', acc ++ ts) := by
  induction ts generalizing n pre c more acc with
  | nil => exact absurd rfl hn
  | cons t ts ih =>
    obtain ⟨n, rfl⟩ : ∃ m, n = m + 1 := ⟨n - 1, by simp at hf; omega⟩
    unfold listLoop
    dsimp only
    rw [peek _ (by simp)]
    cases ts with
    | nil =>
      show (item (atPos pre (print t ++ ']' :: rest)) >>= _) = _
      rw [(hi t (by simp) pre (']' :: rest) (by simp)).2.1 ']' rest rfl (.inl rfl)]
      simp only [Exec.bind_ok]
      rw [read_at]
      simp only [Option.some_or, useChar, Exec.bind_ok, if_true]
      rfl
    | cons u ts =>
      have e : commas ((t :: u :: ts).map print) ++ ']' :: rest =
          print t ++ ',' :: (commas ((u :: ts).map print) ++ ']' :: rest) := by
        simp only [List.map_cons, commas_cons, List.append_assoc, List.cons_append]
      rw [e, (hi t (by simp) pre _ (by simp)).1 _ rfl]
      simp only [Exec.bind_ok]
      have hhead : ∃ d r, commas ((u :: ts).map print) ++ ']' :: rest = d :: r ∧ d ≠ ']' := by
        rcases print_head (hp u (by simp)) with ⟨h1, h2⟩ | ⟨d, r, h1, h2, _⟩
        · cases ts with
          | nil =>
            refine absurd ?_ (hl (by simp))
            simp [h2]
          | cons w ts =>
            refine ⟨',', commas ((w :: ts).map print) ++ ']' :: rest, ?_, by decide⟩
            rw [List.map_cons, List.map_cons, commas_cons, h1]
            rfl
        · cases ts with
          | nil => exact ⟨d, r ++ ']' :: rest, by simp [commas, h1], h2⟩
          | cons w ts =>
            exact ⟨d, r ++ ',' :: commas ((w :: ts).map print) ++ ']' :: rest, by
              rw [List.map_cons, List.map_cons, commas_cons, h1]; rfl, h2⟩
      obtain ⟨d, r, hd, hd'⟩ := hhead
      rw [hd, read_at]
      simp only [Option.some_or, useChar, Exec.bind_ok]
      rw [if_neg hd', back_one, ← hd]
      rw [ih (by simp) (fun t' h => hp t' (by simp [h])) (fun _ => ?_)
        (fun t' h => hi t' (by simp [h])) (by simp at hf ⊢; omega)]
      · simp only [List.map_cons, commas_cons, List.append_assoc, List.cons_append, List.nil_append]
      · have := hl (by simp)
        simpa using this

theorem dictLoop_spec {item : In → Exec (In × Json)} {m : List (Key × Json)} (hn : m ≠ [])
    (hk : ∀ p ∈ m, '"' ∉ p.1)
    (hi : ∀ p ∈ m, ∀ pre rest, rest ≠ [] → Post p.2 pre rest (item (atPos pre (print p.2 ++ rest))))
    {n : Nat} (hf : m.length ≤ n) (pre rest : List Char) (c : Option Char) (more : List Char)
    (acc : List (Key × Json)) (hs : KeysSorted (acc ++ m)) :
    dictLoop item n (atPos pre (commas (m.map field) ++ '}' :: rest)) c more acc =
      .ok (atPos (pre ++ commas (m.map field) ++ ['}']) rest, some '}', acc ++ m) := by
  induction m generalizing n pre c more acc with
  | nil => exact absurd rfl hn
  | cons p m ih =>
    obtain ⟨n, rfl⟩ : ∃ m, n = m + 1 := ⟨n - 1, by simp at hf; omega⟩
    obtain ⟨k, t⟩ := p
    have hput : mapPut acc k t = acc ++ [(k, t)] := by
      refine mapPut_last fun q hq => ?_
      exact (List.pairwise_append.mp hs).2.2 q hq (k, t) (by simp)
    have hkey := hk (k, t) (by simp)
    have key : ∀ (pre r : List Char), ∃ q : List Char, q = pre ++ '"' :: (k ++ ['"']) ∧
        ((atPos pre ('"' :: (k ++ '"' :: ':' :: r))).read).1.line '"' = (atPos q (':' :: r), some k) := by
      intro pre r
      refine ⟨_, rfl, ?_⟩
      rw [read_at]
      dsimp only
      rw [line_at hkey]
      simp
    unfold dictLoop
    dsimp only
    rw [peek _ (by simp)]
    cases m with
    | nil =>
      have e : commas ([(k, t)].map field) ++ '}' :: rest =
          '"' :: (k ++ '"' :: ':' :: (print t ++ '}' :: rest)) := by
        simp [commas, field]
      obtain ⟨q, hq, hline⟩ := key pre (print t ++ '}' :: rest)
      rw [e, hline]
      dsimp only
      rw [read_at]
      dsimp only
      rw [(hi (k, t) (by simp) (q ++ [':']) ('}' :: rest) (by simp)).2.1 '}' rest rfl (.inr rfl)]
      simp only [Exec.bind_ok]
      rw [read_at]
      simp only [Option.some_or, useChar, Exec.bind_ok, if_true, Option.getD_some]
      rw [hput, hq]
      simp [commas, field]
    | cons u m =>
      have e : commas (((k, t) :: u :: m).map field) ++ '}' :: rest =
          '"' :: (k ++ '"' :: ':' :: (print t ++ ',' :: (commas ((u :: m).map field) ++ '}' :: rest))) := by
        simp only [List.map_cons, commas_cons, List.append_assoc, List.cons_append, field]
      obtain ⟨q, hq, hline⟩ := key pre (print t ++ ',' :: (commas ((u :: m).map field) ++ '}' :: rest))
      rw [e, hline]
      dsimp only
      rw [read_at]
      dsimp only
      rw [(hi (k, t) (by simp) (q ++ [':']) _ (by simp)).1 _ rfl]
      simp only [Exec.bind_ok]
      have hhead : ∃ r, commas ((u :: m).map field) ++ '}' :: rest = '"' :: r := by
        cases m with
        | nil => exact ⟨(u.1 ++ '"' :: ':' :: print u.2) ++ '}' :: rest, by simp [commas, field]⟩
        | cons w m =>
          exact ⟨(u.1 ++ '"' :: ':' :: print u.2) ++ ',' :: commas ((w :: m).map field) ++ '}' :: rest, by
            rw [List.map_cons, List.map_cons, commas_cons]; rfl⟩
      obtain ⟨r, hd⟩ := hhead
      rw [hd, read_at]
      simp only [Option.some_or, useChar, Exec.bind_ok, Option.getD_some]
      rw [if_neg (by decide), back_one, ← hd, hput]
      rw [ih (by simp) (fun t' h => hk t' (by simp [h])) (fun t' h => hi t' (by simp [h]))
        (by simp at hf ⊢; omega) _ _ _ _ (by simpa using hs)]
      rw [hq]
      simp [commas_cons, field]

theorem uniform {ι : Type} (l : List ι) (P : ι → Nat → Prop) (h : ∀ x ∈ l, ∃ N, ∀ n, N ≤ n → P x n) :
    ∃ N, ∀ n, N ≤ n → ∀ x ∈ l, P x n := by
  induction l with
  | nil => exact ⟨0, fun _ _ x hx => by cases hx⟩
  | cons a l ih =>
    obtain ⟨N1, h1⟩ := h a (by simp)
    obtain ⟨N2, h2⟩ := ih fun x hx => h x (by simp [hx])
    refine ⟨max N1 N2, fun n hn x hx => ?_⟩
    rcases List.mem_cons.mp hx with rfl | hx
    · exact h1 n (by omega)
    · exact h2 n (by omega) x hx

/-- A written value is read back, whatever follows it. -/
theorem item_spec {t : Json} (h : Plain t) :
    ∃ N, ∀ n, N ≤ n → ∀ pre rest, print t ++ rest ≠ [] →
      Post t pre rest (parseItem n (atPos pre (print t ++ rest))) := by
  have post_skip : ∀ (u : Json) (pre rest : List Char) (q : Char) (e : Exec (In × Json)),
      e = (skipComma (atPos (pre ++ print u) rest) (some q) >>= fun s => Exec.ok (s, u)) →
      Post u pre rest e := by
    rintro u pre rest q e rfl
    refine ⟨?_, ?_, ?_⟩
    · rintro r rfl
      rw [skipComma_comma]
      rfl
    · rintro d r rfl hd
      rw [skipComma_other _ (by rcases hd with rfl | rfl <;> decide)]
      rfl
    · rintro rfl _
      obtain ⟨s, hs⟩ := skipComma_end (pre ++ print u) q
      rw [hs]
      exact ⟨s, rfl⟩
  have leafStep : ∀ (n : Nat) (pre : List Char) (c : Char) (r : List Char), c ≠ '[' → c ≠ '{' →
      parseItem (n + 1) (atPos pre (c :: r)) = parseLeaf (atPos pre (c :: r)) := by
    intro n pre c r h1 h2
    unfold parseItem
    rw [read_at]
    simp only [useChar, Exec.bind_ok]
    rw [if_neg h1, if_neg h2, back_one]
  induction h with
  | @text v hv =>
    refine ⟨1, fun n hn pre rest _ => ?_⟩
    obtain ⟨n, rfl⟩ : ∃ m, n = m + 1 := ⟨n - 1, by omega⟩
    have := parseLeaf_text hv pre rest
    have e : print (.leaf v .string) ++ rest = '"' :: (v ++ ['"'] ++ rest) := by
      rw [print_leaf, if_pos rfl]; rfl
    rw [e] at this ⊢
    rw [leafStep _ _ _ _ (by decide) (by decide)]
    exact this
  | @scalar v ty hp hs =>
    subst hp
    refine ⟨1, fun n hn pre rest hne => ?_⟩
    obtain ⟨n, rfl⟩ : ∃ m, n = m + 1 := ⟨n - 1, by omega⟩
    have hv : print (.leaf v (parseType v)) = v := by rw [print_leaf, if_neg hs]
    rw [hv] at hne
    have := parseLeaf_scalar hs pre rest (by
      by_cases h0 : v = []
      · right
        rintro rfl
        exact hne (by simp [h0])
      · exact .inl h0)
    by_cases hr : ∃ c r, v ++ rest = c :: r ∧ c ≠ '[' ∧ c ≠ '{'
    · obtain ⟨c, r, hc, h1, h2⟩ := hr
      rw [hv] at this ⊢
      rw [hc] at this ⊢
      rw [leafStep _ _ _ _ h1 h2]
      exact this
    · cases v with
      | cons a v =>
        have f2 : '[' ∉ a :: v := scalar_free hs (by simp)
        have f3 : '{' ∉ a :: v := scalar_free hs (by simp)
        exact absurd ⟨a, v ++ rest, rfl, fun e => f2 (by simp [e]), fun e => f3 (by simp [e])⟩ hr
      | nil =>
        refine ⟨?_, ?_, ?_⟩
        · rintro r rfl
          exact absurd ⟨',', r, rfl, by decide, by decide⟩ hr
        · rintro d r rfl hd
          refine absurd ⟨d, r, rfl, ?_, ?_⟩ hr <;> rcases hd with rfl | rfl <;> decide
        · rintro _ h0
          exact absurd hv h0
  | @list ts hn hp hl ih =>
    obtain ⟨N, hN⟩ := uniform ts _ ih
    refine ⟨max N ts.length + 1, fun n hf pre rest _ => ?_⟩
    obtain ⟨n, rfl⟩ : ∃ m, n = m + 1 := ⟨n - 1, by omega⟩
    have e : print (.list ts) ++ rest = '[' :: (commas (ts.map print) ++ ']' :: rest) := by
      rw [print_list]; simp
    refine post_skip _ _ _ ']' _ ?_
    rw [e]
    unfold parseItem
    rw [read_at]
    simp only [useChar, Exec.bind_ok]
    rw [if_pos trivial, back_one, read_at]
    dsimp only
    rw [listLoop_spec hn hp hl (fun t ht pre rest hr => hN n (by omega) t ht pre rest (by simp [hr]))
      (by omega)]
    simp only [Exec.bind_ok, List.nil_append]
    rw [print_list]
    simp
  | @dict m hn hk hp hs ih =>
    obtain ⟨N, hN⟩ := uniform m _ ih
    refine ⟨max N m.length + 1, fun n hf pre rest _ => ?_⟩
    obtain ⟨n, rfl⟩ : ∃ m, n = m + 1 := ⟨n - 1, by omega⟩
    have e : print (.dict m) ++ rest = '{' :: (commas (m.map field) ++ '}' :: rest) := by
      rw [print_dict]; simp
    refine post_skip _ _ _ '}' _ ?_
    rw [e]
    unfold parseItem
    rw [read_at]
    simp only [useChar, Exec.bind_ok]
    rw [if_neg (by decide), if_pos trivial, back_one, read_at]
    dsimp only
    rw [dictLoop_spec hn hk (fun t ht pre rest hr => hN n (by omega) t ht pre rest (by simp [hr]))
      (by omega) _ _ _ _ _ (by simpa using hs)]
    simp only [Exec.bind_ok, List.nil_append]
    rw [print_dict]
    simp

end Verif.Js

import Verif.Proofs.JsonTree
import Verif.Proofs.JsonEq
import Verif.Spec.JsonText

/-! Reading any JSON text without spaces. -/

namespace Verif.Js

open Verif Verif.Text Verif.Spec

theorem commas_eq (ts : List (List Char)) : commas ts = [','].intercalate ts := by
  induction ts with
  | nil => rfl
  | cons t ts ih =>
    cases ts with
    | nil => simp [commas, List.intercalate]
    | cons u ts =>
      rw [commas_cons, ih]
      simp [List.intercalate]

/-! ### Maps -/

theorem mapFind_put {α : Type} {m : List (Key × α)} (hs : KeysSorted m) (k k' : Key) (v : α) :
    mapFind (mapPut m k v) k' = if k = k' then some v else mapFind m k' := by
  induction m with
  | nil => simp [mapPut, mapFind]
  | cons p m ih =>
    obtain ⟨a, b⟩ := p
    have hs' : KeysSorted m := (List.pairwise_cons.mp hs).2
    unfold mapPut
    by_cases h1 : a = k
    · rw [if_pos h1]
      subst h1
      simp only [mapFind]
      by_cases h2 : a = k'
      · simp [h2]
      · simp [h2]
    · rw [if_neg h1]
      by_cases h2 : keyLt k a
      · rw [if_pos h2]
        simp only [mapFind]
      · rw [if_neg h2]
        simp only [mapFind]
        rw [ih hs']
        by_cases h3 : a = k'
        · subst h3
          rw [if_pos rfl, if_neg (fun e => h1 e.symm), if_pos rfl]
        · rw [if_neg h3, if_neg h3]

theorem sorted_ext {α : Type} {m m' : List (Key × α)} (h : KeysSorted m) (h' : KeysSorted m')
    (e : ∀ k, mapFind m k = mapFind m' k) : m = m' := by
  have small : ∀ {m : List (Key × α)} {p : Key × α} {k : Key}, KeysSorted (p :: m) → keyLt k p.1 = true →
      mapFind (p :: m) k = .none := by
    intro m p k hs hk
    rw [mapFind_none]
    intro hm
    simp only [List.map_cons, List.mem_cons, List.mem_map] at hm
    rcases hm with rfl | ⟨q, hq, rfl⟩
    · rw [keyLt_irrefl] at hk
      cases hk
    · have := (List.pairwise_cons.mp hs).1 q hq
      rw [keyLt_asymm this] at hk
      cases hk
  induction m generalizing m' with
  | nil =>
    cases m' with
    | nil => rfl
    | cons p m' =>
      have := e p.1
      simp [mapFind] at this
  | cons p m ih =>
    cases m' with
    | nil =>
      have := e p.1
      simp [mapFind] at this
    | cons q m' =>
      obtain ⟨k, v⟩ := p
      obtain ⟨k', v'⟩ := q
      have hk : k = k' := by
        by_contra hne
        by_cases hlt : keyLt k k' = true
        · have h1 := e k
          rw [small h' hlt] at h1
          simp [mapFind] at h1
        · have hgt := keyLt_total hne (by simpa using hlt)
          have h1 := e k'
          rw [small h hgt] at h1
          simp [mapFind] at h1
      subst hk
      have hv := e k
      simp [mapFind] at hv
      subst hv
      congr 1
      refine ih (List.pairwise_cons.mp h).2 (List.pairwise_cons.mp h').2 fun x => ?_
      by_cases hx : k = x
      · subst hx
        have n1 : mapFind m k = .none := by
          rw [mapFind_none]
          intro hm
          obtain ⟨q, hq, e⟩ := List.mem_map.mp hm
          have := (List.pairwise_cons.mp h).1 q hq
          rw [e, keyLt_irrefl] at this
          cases this
        have n2 : mapFind m' k = .none := by
          rw [mapFind_none]
          intro hm
          obtain ⟨q, hq, e⟩ := List.mem_map.mp hm
          have := (List.pairwise_cons.mp h').1 q hq
          rw [e, keyLt_irrefl] at this
          cases this
        rw [n1, n2]
      · have := e x
        simpa [mapFind, hx] using this

/-- The fields put into a map one after the other. -/
def putAll {α : Type} (acc : List (Key × α)) (fs : List (Key × α)) : List (Key × α) :=
  fs.foldl (fun m f => mapPut m f.1 f.2) acc

theorem putAll_sorted {α : Type} {acc fs : List (Key × α)} (h : KeysSorted acc) : KeysSorted (putAll acc fs) := by
  unfold putAll
  induction fs generalizing acc with
  | nil => exact h
  | cons f fs ih => exact ih (mapPut_sorted h)

theorem putAll_find {α : Type} {acc fs : List (Key × α)} (h : KeysSorted acc) (k : Key) :
    mapFind (putAll acc fs) k = (lastField fs k).or (mapFind acc k) := by
  induction fs generalizing acc with
  | nil => simp [putAll, lastField]
  | cons f fs ih =>
    have := ih (acc := mapPut acc f.1 f.2) (mapPut_sorted h)
    rw [show putAll acc (f :: fs) = putAll (mapPut acc f.1 f.2) fs from rfl, this, mapFind_put h]
    unfold lastField
    rw [List.reverse_cons, List.find?_append]
    cases h1 : fs.reverse.find? (fun f => f.1 = k) with
    | some x => simp
    | none =>
      by_cases h2 : f.1 = k
      · simp [h2]
      · simp [h2]

/-! ### Reading -/

/-- What reading a text leaves, depending on the text that follows. -/
def Reads (T : List Char) (t : Json) (pre rest : List Char) (e : Exec (In × Json)) : Prop :=
  (∀ r, rest = ',' :: r → e = .ok (atPos (pre ++ T ++ [',']) r, t)) ∧
    (∀ d r, rest = d :: r → d = ']' ∨ d = '}' → e = .ok (atPos (pre ++ T) rest, t)) ∧
    (rest = [] → T ≠ [] → ∃ s, e = .ok (s, t))

theorem denotes_head {T : List Char} {t : Json} (h : Denotes T t) :
    T = [] ∨ ∃ c r, T = c :: r ∧ c ≠ ']' ∧ c ≠ '}' := by
  cases h with
  | string _ => exact .inr ⟨'"', _, rfl, by decide, by decide⟩
  | scalar hs =>
    cases T with
    | nil => exact .inl rfl
    | cons c r =>
      have f2 : ']' ∉ c :: r := scalar_free hs (by simp)
      have f3 : '}' ∉ c :: r := scalar_free hs (by simp)
      exact .inr ⟨c, r, rfl, fun e => f2 (by simp [e]), fun e => f3 (by simp [e])⟩
  | list _ _ _ => exact .inr ⟨'[', _, rfl, by decide, by decide⟩
  | dict _ _ _ _ _ => exact .inr ⟨'{', _, rfl, by decide, by decide⟩

theorem listLoop_reads {item : In → Exec (In × Json)} {xs : List (List Char × Json)} (hn : xs ≠ [])
    (hp : ∀ x ∈ xs, Denotes x.1 x.2) (hl : 2 ≤ xs.length → (xs.map Prod.fst).getLast? ≠ some [])
    (hi : ∀ x ∈ xs, ∀ pre rest, rest ≠ [] → Reads x.1 x.2 pre rest (item (atPos pre (x.1 ++ rest))))
    {n : Nat} (hf : xs.length ≤ n) (pre rest : List Char) (c : Option Char) (more : List Char)
    (acc : List Json) :
    listLoop item n (atPos pre (commas (xs.map Prod.fst) ++ ']' :: rest)) c more acc =
      .ok (atPos (pre ++ commas (xs.map Prod.fst) ++ [']']) rest, some ']', acc ++ xs.map Prod.snd) := by
  induction xs generalizing n pre c more acc with
  | nil => exact absurd rfl hn
  | cons t ts ih =>
    obtain ⟨n, rfl⟩ : ∃ m, n = m + 1 := ⟨n - 1, by simp at hf; omega⟩
    unfold listLoop
    dsimp only
    rw [peek _ (by simp)]
    cases ts with
    | nil =>
      show (item (atPos pre (t.1 ++ ']' :: rest)) >>= _) = _
      rw [(hi t (by simp) pre (']' :: rest) (by simp)).2.1 ']' rest rfl (.inl rfl)]
      simp only [Exec.bind_ok]
      rw [read_at]
      simp only [Option.some_or, useChar, Exec.bind_ok, if_true]
      rfl
    | cons u ts =>
      have e : commas ((t :: u :: ts).map Prod.fst) ++ ']' :: rest =
          t.1 ++ ',' :: (commas ((u :: ts).map Prod.fst) ++ ']' :: rest) := by
        simp only [List.map_cons, commas_cons, List.append_assoc, List.cons_append]
      rw [e, (hi t (by simp) pre _ (by simp)).1 _ rfl]
      simp only [Exec.bind_ok]
      have hhead : ∃ d r, commas ((u :: ts).map Prod.fst) ++ ']' :: rest = d :: r ∧ d ≠ ']' := by
        rcases denotes_head (hp u (by simp)) with h1 | ⟨d, r, h1, h2, _⟩
        · cases ts with
          | nil =>
            refine absurd ?_ (hl (by simp))
            simp [h1]
          | cons w ts =>
            refine ⟨',', commas ((w :: ts).map Prod.fst) ++ ']' :: rest, ?_, by decide⟩
            rw [List.map_cons, List.map_cons, commas_cons, h1]
            rfl
        · cases ts with
          | nil => exact ⟨d, r ++ ']' :: rest, by simp [commas, h1], h2⟩
          | cons w ts =>
            exact ⟨d, r ++ ',' :: commas ((w :: ts).map Prod.fst) ++ ']' :: rest, by
              rw [List.map_cons, List.map_cons, commas_cons, h1]; rfl, h2⟩
      obtain ⟨d, r, hd, hd'⟩ := hhead
      rw [hd, read_at]
      simp only [Option.some_or, useChar, Exec.bind_ok]
      rw [if_neg hd', back_one, ← hd]
      rw [ih (by simp) (fun t' h => hp t' (by simp [h])) (fun _ => ?_)
        (fun t' h => hi t' (by simp [h])) (by simp at hf ⊢; omega)]
      · simp only [List.map_cons, commas_cons, List.append_assoc, List.cons_append, List.nil_append]
      · have := hl (by simp)
        simpa using this

/-- The text of a field. -/
def fieldText (f : Key × List Char × Json) : List Char := '"' :: (f.1 ++ '"' :: ':' :: f.2.1)

/-- A field with its value. -/
def fieldValue (f : Key × List Char × Json) : Key × Json := (f.1, f.2.2)

theorem dictLoop_reads {item : In → Exec (In × Json)} {fs : List (Key × List Char × Json)} (hn : fs ≠ [])
    (hk : ∀ p ∈ fs, '"' ∉ p.1)
    (hi : ∀ p ∈ fs, ∀ pre rest, rest ≠ [] → Reads p.2.1 p.2.2 pre rest (item (atPos pre (p.2.1 ++ rest))))
    {n : Nat} (hf : fs.length ≤ n) (pre rest : List Char) (c : Option Char) (more : List Char)
    (acc : List (Key × Json)) :
    dictLoop item n (atPos pre (commas (fs.map fieldText) ++ '}' :: rest)) c more acc =
      .ok (atPos (pre ++ commas (fs.map fieldText) ++ ['}']) rest, some '}', putAll acc (fs.map fieldValue)) := by
  induction fs generalizing n pre c more acc with
  | nil => exact absurd rfl hn
  | cons p fs ih =>
    obtain ⟨n, rfl⟩ : ∃ m, n = m + 1 := ⟨n - 1, by simp at hf; omega⟩
    obtain ⟨k, T, t⟩ := p
    have hkey := hk (k, T, t) (by simp)
    have key : ∀ (pre r : List Char), ∃ q : List Char, q = pre ++ '"' :: (k ++ ['"']) ∧
        ((atPos pre ('"' :: (k ++ '"' :: ':' :: r))).read).1.line '"' = (atPos q (':' :: r), some k) := by
      intro pre r
      refine ⟨_, rfl, ?_⟩
      rw [read_at]
      dsimp only
      rw [line_at hkey]
      simp
    unfold dictLoop
    dsimp only
    rw [peek _ (by simp)]
    cases fs with
    | nil =>
      have e : commas ([(k, T, t)].map fieldText) ++ '}' :: rest =
          '"' :: (k ++ '"' :: ':' :: (T ++ '}' :: rest)) := by
        simp [commas, fieldText]
      obtain ⟨q, hq, hline⟩ := key pre (T ++ '}' :: rest)
      rw [e, hline]
      dsimp only
      rw [read_at]
      dsimp only
      rw [(hi (k, T, t) (by simp) (q ++ [':']) ('}' :: rest) (by simp)).2.1 '}' rest rfl (.inr rfl)]
      simp only [Exec.bind_ok]
      rw [read_at]
      simp only [Option.some_or, useChar, Exec.bind_ok, if_true, Option.getD_some]
      rw [hq]
      simp [commas, fieldText, putAll, fieldValue]
    | cons u fs =>
      have e : commas (((k, T, t) :: u :: fs).map fieldText) ++ '}' :: rest =
          '"' :: (k ++ '"' :: ':' :: (T ++ ',' :: (commas ((u :: fs).map fieldText) ++ '}' :: rest))) := by
        simp only [List.map_cons, commas_cons, List.append_assoc, List.cons_append, fieldText]
      obtain ⟨q, hq, hline⟩ := key pre (T ++ ',' :: (commas ((u :: fs).map fieldText) ++ '}' :: rest))
      rw [e, hline]
      dsimp only
      rw [read_at]
      dsimp only
      rw [(hi (k, T, t) (by simp) (q ++ [':']) _ (by simp)).1 _ rfl]
      simp only [Exec.bind_ok]
      have hhead : ∃ r, commas ((u :: fs).map fieldText) ++ '}' :: rest = '"' :: r := by
        cases fs with
        | nil => exact ⟨(u.1 ++ '"' :: ':' :: u.2.1) ++ '}' :: rest, by simp [commas, fieldText]⟩
        | cons w fs =>
          exact ⟨(u.1 ++ '"' :: ':' :: u.2.1) ++ ',' :: commas ((w :: fs).map fieldText) ++ '}' :: rest, by
            rw [List.map_cons, List.map_cons, commas_cons]; rfl⟩
      obtain ⟨r, hd⟩ := hhead
      rw [hd, read_at]
      simp only [Option.some_or, useChar, Exec.bind_ok, Option.getD_some]
      rw [if_neg (by decide), back_one, ← hd]
      rw [ih (by simp) (fun t' h => hk t' (by simp [h])) (fun t' h => hi t' (by simp [h]))
        (by simp at hf ⊢; omega)]
      rw [hq]
      simp [commas_cons, fieldText, putAll, fieldValue]

theorem item_reads {T : List Char} {t : Json} (h : Denotes T t) :
    ∃ N, ∀ n, N ≤ n → ∀ pre rest, T ++ rest ≠ [] → Reads T t pre rest (parseItem n (atPos pre (T ++ rest))) := by
  have post_skip : ∀ (T : List Char) (u : Json) (pre rest : List Char) (q : Char) (e : Exec (In × Json)),
      e = (skipComma (atPos (pre ++ T) rest) (some q) >>= fun s => Exec.ok (s, u)) → Reads T u pre rest e := by
    rintro T u pre rest q e rfl
    refine ⟨?_, ?_, ?_⟩
    · rintro r rfl
      rw [skipComma_comma]
      rfl
    · rintro d r rfl hd
      rw [skipComma_other _ (by rcases hd with rfl | rfl <;> decide)]
      rfl
    · rintro rfl _
      obtain ⟨s, hs⟩ := skipComma_end (pre ++ T) q
      rw [hs]
      exact ⟨s, rfl⟩
  have leaf : ∀ {u : Json}, Plain u → ∃ N, ∀ n, N ≤ n → ∀ pre rest, print u ++ rest ≠ [] →
      Reads (print u) u pre rest (parseItem n (atPos pre (print u ++ rest))) := fun h => item_spec h
  induction h with
  | @string v hv =>
    have := leaf (.text hv)
    rwa [print_leaf, if_pos rfl] at this
  | @scalar v hs =>
    have := leaf (.scalar rfl hs)
    rwa [print_leaf, if_neg hs] at this
  | @list xs hn hp hl ih =>
    obtain ⟨N, hN⟩ := uniform xs _ ih
    refine ⟨max N xs.length + 1, fun n hf pre rest _ => ?_⟩
    obtain ⟨n, rfl⟩ : ∃ m, n = m + 1 := ⟨n - 1, by omega⟩
    rw [← commas_eq]
    refine post_skip _ _ _ _ ']' _ ?_
    have e : '[' :: (commas (xs.map Prod.fst) ++ [']']) ++ rest =
      '[' :: (commas (xs.map Prod.fst) ++ ']' :: rest) := by simp
    rw [e]
    unfold parseItem
    rw [read_at]
    simp only [useChar, Exec.bind_ok]
    rw [if_pos trivial, back_one, read_at]
    dsimp only
    rw [listLoop_reads hn hp hl (fun t ht pre rest hr => hN n (by omega) t ht pre rest (by simp [hr]))
      (by omega)]
    simp only [Exec.bind_ok, List.nil_append]
    simp
  | @dict fs m hn hk hp hs hm ih =>
    obtain ⟨N, hN⟩ := uniform fs _ ih
    refine ⟨max N fs.length + 1, fun n hf pre rest _ => ?_⟩
    obtain ⟨n, rfl⟩ : ∃ m, n = m + 1 := ⟨n - 1, by omega⟩
    have hmap : putAll [] (fs.map fieldValue) = m := by
      refine sorted_ext (putAll_sorted (by simp [KeysSorted])) hs fun k => ?_
      rw [putAll_find (by simp [KeysSorted]), hm]
      unfold lastField
      rw [← List.map_reverse, List.find?_map]
      have hc : (fun f : Key × Json => decide (f.1 = k)) ∘ fieldValue = fun f => decide (f.1 = k) := rfl
      rw [hc]
      cases fs.reverse.find? fun f => decide (f.1 = k) <;> simp [mapFind, fieldValue]
    have hfield : (fs.map fun f => '"' :: (f.1 ++ '"' :: ':' :: f.2.1)) = fs.map fieldText := rfl
    rw [hfield, ← commas_eq]
    refine post_skip _ _ _ _ '}' _ ?_
    have e : '{' :: (commas (fs.map fieldText) ++ ['}']) ++ rest =
      '{' :: (commas (fs.map fieldText) ++ '}' :: rest) := by simp
    rw [e]
    unfold parseItem
    rw [read_at]
    simp only [useChar, Exec.bind_ok]
    rw [if_neg (by decide), if_pos trivial, back_one, read_at]
    dsimp only
    rw [dictLoop_reads hn hk (fun t ht pre rest hr => hN n (by omega) t ht pre rest (by simp [hr]))
      (by omega)]
    simp only [Exec.bind_ok, List.nil_append]
    rw [hmap]
    simp

end Verif.Js

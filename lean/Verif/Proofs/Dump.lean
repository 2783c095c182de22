import Verif.Spec.Dump
import Verif.Proofs.Json
import Mathlib.Tactic.Ring
import Mathlib.Algebra.BigOperators.Group.List.Basic

namespace Verif.Dump

open Verif.Js Verif.Text Verif.Slide Verif.Spec

variable {N : Type}

/-! ### Numbers as text -/

theorem decimal_natText (n : Nat) : decimal (natText n) = n := by
  have h := Nat.ofDigitChars_toDigits (b := 10) (n := n) (by decide) (by decide)
  rw [Nat.ofDigitChars_eq_foldl] at h
  unfold decimal natText
  conv => rhs; rw [← h]
  congr 1
  funext a c
  rw [Nat.mul_comm]

theorem digit_of_natText {n : Nat} {c : Char} (h : c ∈ natText n) : isDigit c = true := by
  have := Nat.isDigit_of_mem_toDigits (by decide) (by decide) h
  unfold isDigit
  simp only [Char.isDigit, Bool.and_eq_true, decide_eq_true_eq] at this ⊢
  exact this

theorem isDigit_not_space {c : Char} (h : isDigit c = true) : isSpace c = false := by
  unfold isDigit at h
  simp only [Bool.and_eq_true, decide_eq_true_eq] at h
  have h1 : 48 ≤ c.toNat := h.1
  unfold isSpace
  simp only [Bool.or_eq_false_iff, beq_eq_false_iff_ne, ne_eq]
  refine ⟨⟨⟨⟨⟨?_, ?_⟩, ?_⟩, ?_⟩, ?_⟩, ?_⟩
  all_goals first | omega | (rintro rfl; revert h1; decide)

theorem isDigit_not_sign {c : Char} (h : isDigit c = true) : (c == '-' || c == '+') = false := by
  unfold isDigit at h
  simp only [Bool.and_eq_true, decide_eq_true_eq] at h
  have h1 : 48 ≤ c.toNat := h.1
  simp only [Bool.or_eq_false_iff, beq_eq_false_iff_ne, ne_eq]
  constructor
  all_goals (rintro rfl; revert h1; decide)

theorem takeWhile_all {α : Type} {p : α → Bool} : ∀ {l : List α}, (∀ x ∈ l, p x = true) → l.takeWhile p = l
  | [], _ => rfl
  | a :: l, h => by
    rw [List.takeWhile_cons_of_pos (h a (by simp)), takeWhile_all fun x hx => h x (by simp [hx])]

theorem numberPart_natText (n : Nat) : numberPart (natText n) = (.none, natText n) := by
  unfold numberPart
  have hall : ∀ c ∈ natText n, isDigit c = true := fun c => digit_of_natText
  have hne : natText n ≠ [] := Nat.toDigits_ne_nil
  cases hs : natText n with
  | nil => exact absurd hs hne
  | cons c r =>
    rw [hs] at hall
    rw [List.dropWhile_cons_of_neg (by rw [isDigit_not_space (hall c (by simp))]; decide)]
    simp only [isDigit_not_sign (hall c (by simp)), Bool.false_eq_true, if_false]
    rw [takeWhile_all hall]

theorem numberPart_neg (n : Nat) : numberPart ('-' :: natText n) = (some '-', natText n) := by
  unfold numberPart
  rw [List.dropWhile_cons_of_neg (by decide)]
  show (some '-', _) = _
  rw [takeWhile_all fun c => digit_of_natText]

theorem intText_nat (n : Nat) : intText (n : Int) = natText n := by
  unfold intText
  rw [if_neg (by omega), Int.natAbs_natCast]

theorem readSize_natText {n : Nat} (h : Word n) : readSize (natText n) = n := by
  unfold readSize
  rw [numberPart_natText]
  dsimp only
  rw [decimal_natText, if_neg (by unfold Word at h; omega), if_neg (by simp)]

theorem readInt_intText {i : Int} (h1 : -2 ^ 31 ≤ i) (h2 : i < 2 ^ 31) : readInt (intText i) = i := by
  unfold readInt intText
  by_cases hi : i < 0
  · rw [if_pos hi, numberPart_neg]
    dsimp only
    rw [decimal_natText, if_pos rfl, if_neg (by omega)]
    omega
  · rw [if_neg hi, numberPart_natText]
    dsimp only
    rw [decimal_natText, if_neg (by simp), if_neg (by omega)]
    omega

theorem ofInt_eq (i : Int) : ofInt i = .leaf (intText i) .int := rfl

theorem asSize_ofInt {n : Nat} (h : Word n) : asSize (ofInt n) = .ok n := by
  rw [ofInt_eq, intText_nat]
  unfold asSize leafText
  rw [Exec.bind_ok, readSize_natText h]

theorem asInt_ofInt {i : Int} (h1 : -2 ^ 31 ≤ i) (h2 : i < 2 ^ 31) : asInt (ofInt i) = .ok i := by
  rw [ofInt_eq]
  unfold asInt leafText
  rw [Exec.bind_ok, readInt_intText h1 h2]

theorem asNum_num (io : NumText N) (x : N) : asNum io (num io x) = .ok (trip io x) := rfl

/-! ### Lists built by appending -/

/-- The item after appending the given ones to an empty item. -/
def listOf : List Json → Json
  | [] => .none
  | t :: ts => .list (t :: ts)

theorem append_listOf (ts : List Json) (t : Json) : append (listOf ts) t = .ok (listOf (ts ++ [t])) := by
  cases ts <;> rfl

theorem append_loop {n : Nat} {g : Nat → Exec Json} {f : Nat → Json} (h : ∀ i < n, g i = .ok (f i)) :
    (forUp n Json.none fun i acc => g i >>= fun v => append acc v) = .ok (listOf ((List.range n).map f)) := by
  obtain ⟨a, h1, h2⟩ := forUp_returns (n := n) (s := Json.none)
    (body := fun i acc => g i >>= fun v => append acc v)
    (fun i a => a = listOf ((List.range i).map f)) rfl (by
      rintro i a hi rfl
      refine ⟨_, ?_, rfl⟩
      beta_reduce
      rw [h i hi, Exec.bind_ok, append_listOf, List.range_succ, List.map_append]
      rfl)
  rw [h1, h2]

theorem atIdx_eq {ts : List Json} {i : Nat} {t : Json} (h : ts[i]? = some t) : atIdx (.list ts) i = .ok t := by
  simp only [atIdx, h]

theorem atKey_eq {m : List (Key × Json)} {k : Key} {v : Json} (h : mapFind m k = some v) :
    atKey (.dict m) k = .ok v := by
  simp only [atKey, h]

theorem atIdx_listOf {n : Nat} {f : Nat → Json} {i : Nat} (h : i < n) :
    atIdx (listOf ((List.range n).map f)) i = .ok (f i) := by
  have e : listOf ((List.range n).map f) = .list ((List.range n).map f) := by
    cases n with
    | zero => omega
    | succ n => rw [List.range_succ_eq_map]; rfl
  rw [e]
  apply atIdx_eq
  rw [List.getElem?_map, List.getElem?_range h]
  rfl

theorem sizeOf_listOf (ts : List Json) : sizeOf (listOf ts) = ts.length := by cases ts <;> rfl

theorem map_range_get {α β : Type} [Inhabited α] (l : List α) (g : α → β) :
    (List.range l.length).map (fun i => g (l[i]?.getD default)) = l.map g := by
  apply List.ext_getElem?
  intro i
  rw [List.getElem?_map, List.getElem?_map]
  by_cases h : i < l.length
  · rw [List.getElem?_range h]
    simp [List.getElem?_eq_getElem h]
  · rw [List.getElem?_eq_none (by simpa using h), List.getElem?_eq_none (by simpa using h)]
    rfl

instance : Inhabited Shape3 := ⟨⟨0, 0, 0⟩⟩

/-! ### Shapes -/

theorem shapesJson_ok (ss : List Shape3) :
    shapesJson ss = .ok (listOf (ss.map fun s => sizesJson [s.h, s.w, s.c])) := by
  unfold shapesJson
  have := append_loop (n := ss.length) (g := fun i => do
      let s ← rd ss i
      Exec.ok (sizesJson [s.h, s.w, s.c]))
    (f := fun i => (fun s : Shape3 => sizesJson [s.h, s.w, s.c]) (ss[i]?.getD default)) (by
      intro i hi
      beta_reduce
      rw [rd_ok hi, Exec.bind_ok, List.getElem?_eq_getElem hi]
      rfl)
  rw [map_range_get ss fun s => sizesJson [s.h, s.w, s.c]] at this
  rw [← this]
  unfold forUp
  apply forFrom_congr
  intro i s _ _
  cases rd ss i <;> rfl

theorem atIdx_three {a b c : Json} :
    atIdx (.list [a, b, c]) 0 = .ok a ∧ atIdx (.list [a, b, c]) 1 = .ok b ∧ atIdx (.list [a, b, c]) 2 = .ok c :=
  ⟨rfl, rfl, rfl⟩

theorem atIdx_list {ts : List Json} {i : Nat} {t : Json} (h : ts[i]? = some t) : atIdx (listOf ts) i = .ok t := by
  cases ts with
  | nil => simp at h
  | cons a ts =>
    exact atIdx_eq h

theorem loadShapes_ok {ss : List Shape3} (h : ∀ s ∈ ss, WordShape s) :
    loadShapes (listOf (ss.map fun s => sizesJson [s.h, s.w, s.c])) = .ok ss := by
  unfold loadShapes
  rw [sizeOf_listOf, List.length_map]
  obtain ⟨a, h1, h2⟩ := forUp_returns (n := ss.length) (s := ([] : List Shape3))
    (body := fun i acc => do
      let s ← atIdx (listOf (ss.map fun s => sizesJson [s.h, s.w, s.c])) i
      let h ← atIdx s 0
      let h ← asSize h
      let w ← atIdx s 1
      let w ← asSize w
      let c ← atIdx s 2
      let c ← asSize c
      Exec.ok (acc ++ [(⟨h, w, c⟩ : Shape3)]))
    (fun i acc => acc = ss.take i) rfl (by
      rintro i acc hi rfl
      obtain ⟨w1, w2, w3⟩ := h ss[i] (List.getElem_mem hi)
      refine ⟨_, ?_, rfl⟩
      beta_reduce
      rw [atIdx_list (t := sizesJson [ss[i].h, ss[i].w, ss[i].c])
        (by rw [List.getElem?_map, List.getElem?_eq_getElem hi]; rfl)]
      unfold sizesJson
      simp only [List.map_cons, List.map_nil, Exec.bind_ok, atIdx_three.1, atIdx_three.2.1, atIdx_three.2.2,
        asSize_ofInt w1, asSize_ofInt w2, asSize_ofInt w3]
      rw [List.take_add_one, List.getElem?_eq_getElem hi]
      rfl)
  rw [h1, h2, List.take_length]

theorem size0_eq {ss : List Shape3} (h : ss ≠ []) : size0 ss = .ok (firstSize ss) := by
  cases ss with
  | nil => exact absurd rfl h
  | cons s ss => rfl

/-! ### The base class -/

/-- The item of `Layer::dump`. -/
theorem dumpBase_ok (type : List Char) (f : Fields) :
    dumpBase type f = .ok (.dict [(kInput, listOf (f.inShapes.map fun s => sizesJson [s.h, s.w, s.c])),
      (kName, ofString f.name), (kOutput, listOf (f.outShapes.map fun s => sizesJson [s.h, s.w, s.c])),
      (kType, ofString type)]) := by
  unfold dumpBase
  rw [shapesJson_ok, shapesJson_ok]
  rfl

theorem loadBase_ok {type : List Char} {f : Fields} {m : List (Key × Json)} (hi : f.inShapes ≠ [])
    (ho : f.outShapes ≠ []) (hw : ∀ s ∈ f.inShapes ++ f.outShapes, WordShape s)
    (e1 : mapFind m kInput = some (listOf (f.inShapes.map fun s => sizesJson [s.h, s.w, s.c])))
    (e2 : mapFind m kName = some (ofString f.name))
    (e3 : mapFind m kOutput = some (listOf (f.outShapes.map fun s => sizesJson [s.h, s.w, s.c])))
    (e4 : mapFind m kType = some (ofString type)) :
    loadBase type (.dict m) =
      .ok ⟨f.name, f.inShapes, f.outShapes, firstSize f.inShapes, firstSize f.outShapes⟩ := by
  show loadFields type (.dict m) = _
  unfold loadFields atKey
  simp only [e1, e2, e3, e4, Exec.bind_ok]
  show (if type ≠ type then _ else _) = _
  rw [if_neg (by simp)]
  rw [loadShapes_ok fun s hs => hw s (by simp [hs]), Exec.bind_ok, size0_eq hi, Exec.bind_ok,
    loadShapes_ok fun s hs => hw s (by simp [hs]), Exec.bind_ok, size0_eq ho, Exec.bind_ok]
  rfl

theorem loadBase_other {type type' : List Char} {m : List (Key × Json)} (e4 : mapFind m kType = some (ofString type'))
    (h : type' ≠ type) :
    loadBase type (.dict m) = .throw "The current layer do not correspond with loaded type" := by
  show loadFields type (.dict m) = _
  unfold loadFields atKey
  simp only [e4, Exec.bind_ok]
  show (if type' ≠ type then _ else _) = _
  rw [if_pos h]

/-! ### Parameters -/

/-- The item with the parameters of a block of memory. -/
def nestTree (io : NumText N) (w : List N) : List Nat → Nat → Json
  | [], off => (w[off]?).elim .none (num io)
  | d :: ds, off => listOf ((List.range d).map fun i => nestTree io w ds (off + i * ds.prod))

theorem nestJson_ok (io : NumText N) (w : List N) : ∀ (ds : List Nat) (off : Nat), off + ds.prod ≤ w.length →
    nestJson io w ds off = .ok (nestTree io w ds off) := by
  intro ds
  induction ds with
  | nil =>
    intro off h
    simp only [List.prod_nil] at h
    unfold nestJson nestTree
    rw [rd_ok (by omega), Exec.bind_ok, List.getElem?_eq_getElem (by omega)]
    rfl
  | cons d ds ih =>
    intro off h
    unfold nestJson nestTree
    apply append_loop
    intro i hi
    apply ih
    rw [List.prod_cons] at h
    have : i * ds.prod + ds.prod ≤ d * ds.prod := by
      calc i * ds.prod + ds.prod = (i + 1) * ds.prod := by ring
        _ ≤ d * ds.prod := Nat.mul_le_mul_right _ hi
    omega

theorem atPath_append {j c : Json} {p : List Nat} (h : atPath j p = .ok c) (q : List Nat) :
    atPath j (p ++ q) = atPath c q := by
  induction p generalizing j with
  | nil =>
    cases h
    rfl
  | cons i p ih =>
    unfold atPath at h
    show (atIdx j i >>= fun c => atPath c (p ++ q)) = _
    cases hj : atIdx j i with
    | ok a => rw [hj] at h; exact ih h
    | throw m => rw [hj] at h; cases h
    | ub => rw [hj] at h; cases h

theorem nestLoad_ok (io : NumText N) (src : List N) (j : Json) : ∀ (ds path : List Nat) (off : Nat) (w : List N),
    atPath j path = .ok (nestTree io src ds off) → off + ds.prod ≤ w.length → w.length = src.length →
    ∃ w', nestLoad io j ds path off w = .ok w' ∧ w'.length = w.length ∧
      ∀ p, w'[p]? = if off ≤ p ∧ p < off + ds.prod then (src[p]?).map (trip io) else w[p]? := by
  intro ds
  induction ds with
  | nil =>
    intro path off w hp hoff hlen
    simp only [List.prod_nil] at hoff
    refine ⟨w.set off (trip io (src[off]'(by omega))), ?_, by simp, ?_⟩
    · unfold nestLoad
      rw [hp, Exec.bind_ok]
      unfold nestTree
      rw [List.getElem?_eq_getElem (by omega)]
      show (asNum io (num io _) >>= _) = _
      rw [asNum_num, Exec.bind_ok, wr_ok (by omega)]
    · intro p
      rw [List.prod_nil, List.getElem?_set]
      by_cases h : off = p
      · subst h
        rw [if_pos rfl, if_pos (by omega), if_pos (by omega), List.getElem?_eq_getElem (by omega)]
        rfl
      · rw [if_neg h, if_neg (by omega)]
  | cons d ds ih =>
    intro path off w hp hoff hlen
    rw [List.prod_cons] at hoff
    have hb : ∀ i, i < d → i * ds.prod + ds.prod ≤ d * ds.prod := by
      intro i hi
      calc i * ds.prod + ds.prod = (i + 1) * ds.prod := by ring
        _ ≤ d * ds.prod := Nat.mul_le_mul_right _ hi
    obtain ⟨w', h1, h2, h3⟩ := forUp_returns (n := d) (s := w)
      (body := fun i w => nestLoad io j ds (path ++ [i]) (off + i * ds.prod) w)
      (fun i v => v.length = w.length ∧
        ∀ p, v[p]? = if off ≤ p ∧ p < off + i * ds.prod then (src[p]?).map (trip io) else w[p]?)
      ⟨rfl, fun p => by rw [if_neg (by omega)]⟩ (by
        rintro i v hi ⟨hv1, hv2⟩
        have hbi := hb i hi
        obtain ⟨v', e1, e2, e3⟩ := ih (path ++ [i]) (off + i * ds.prod) v
          (by
            rw [atPath_append hp]
            show (atIdx (listOf ((List.range d).map fun i => nestTree io src ds (off + i * ds.prod))) i >>=
              fun c => atPath c []) = _
            rw [atIdx_listOf hi]
            rfl)
          (by omega) (by omega)
        refine ⟨v', e1, by omega, fun p => ?_⟩
        rw [e3 p, hv2 p]
        have hs : (i + 1) * ds.prod = i * ds.prod + ds.prod := by ring
        rw [hs]
        by_cases c1 : off ≤ p ∧ p < off + i * ds.prod
        · rw [if_pos c1, if_neg (by omega), if_pos (by omega)]
        · rw [if_neg c1]
          by_cases c2 : off + i * ds.prod ≤ p ∧ p < off + i * ds.prod + ds.prod
          · rw [if_pos c2, if_pos (by omega)]
          · rw [if_neg c2, if_neg (by omega)])
    refine ⟨w', ?_, h2, ?_⟩
    · unfold nestLoad
      exact h1
    · rw [List.prod_cons]
      exact h3

theorem resize_length [Zero N] (l : List N) (n : Nat) : (resize l n).length = n := by
  unfold resize
  rw [List.length_append, List.length_take, List.length_replicate]
  omega

theorem loadParams_ok [Zero N] (io : NumText N) {src w : List N} {m : List (Key × Json)} {k : Key}
    {pre dims : List Nat} {v : Json} (hk : mapFind m k = some v) (hv : atPath v pre = .ok (nestTree io src dims 0))
    (hs : src.length = dims.prod) (hw : w.length = dims.prod) :
    loadParams io (.dict m) k pre dims w = .ok (src.map (trip io)) := by
  unfold loadParams
  by_cases h0 : dims.prod = 0
  · rw [if_pos h0]
    rw [h0] at hs hw
    rw [List.length_eq_zero_iff] at hs hw
    rw [hs, hw]
    rfl
  · rw [if_neg h0]
    rw [atKey_eq hk, Exec.bind_ok]
    obtain ⟨w', h1, h2, h3⟩ := nestLoad_ok io src v dims pre 0 w hv (by omega) (by omega)
    rw [h1]
    congr 1
    apply List.ext_getElem?
    intro p
    rw [h3 p, List.getElem?_map]
    by_cases hp : p < dims.prod
    · rw [if_pos (by omega)]
    · rw [if_neg (by omega), List.getElem?_eq_none (by omega), List.getElem?_eq_none (by omega)]
      rfl

end Verif.Dump

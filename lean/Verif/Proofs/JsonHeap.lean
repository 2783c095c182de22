import Verif.Spec.JsonHeap
import Verif.Proofs.JsonEq

namespace Verif.Js

open Verif.Text Verif.Spec

/-- The item shows the tree, through objects of the set `F` that nothing else in the tree shares. -/
inductive Owns (h : Heap) : Item → Json → (Nat → Prop) → Prop where
  | none : Owns h ⟨.none, .none⟩ .none fun _ => False
  | leaf {a : Nat} {v : List Char} {t : Ty} : h[a]? = some (.leaf v t) →
      Owns h ⟨.leaf, some a⟩ (.leaf v t) fun x => x = a
  | list {a : Nat} {is : List Item} {ts : List Json} {Fs : Nat → Nat → Prop} : h[a]? = some (.list is) →
      is.length = ts.length →
      (∀ (i : Nat) (it : Item) (t : Json), is[i]? = some it → ts[i]? = some t → Owns h it t (Fs i)) →
      (∀ i j x, i < is.length → j < is.length → Fs i x → Fs j x → i = j) → (∀ i, i < is.length → ¬ Fs i a) →
      Owns h ⟨.list, some a⟩ (.list ts) fun x => x = a ∨ ∃ i, i < is.length ∧ Fs i x
  | dict {a : Nat} {m : List (Key × Item)} {ts : List (Key × Json)} {Fs : Nat → Nat → Prop} :
      h[a]? = some (.dict m) → m.map Prod.fst = ts.map Prod.fst →
      (∀ (i : Nat) (k k' : Key) (it : Item) (t : Json), m[i]? = some (k, it) → ts[i]? = some (k', t) →
        Owns h it t (Fs i)) →
      (∀ i j x, i < m.length → j < m.length → Fs i x → Fs j x → i = j) → (∀ i, i < m.length → ¬ Fs i a) →
      Owns h ⟨.dict, some a⟩ (.dict ts) fun x => x = a ∨ ∃ i, i < m.length ∧ Fs i x

theorem Owns.shows {h : Heap} {it : Item} {t : Json} {F : Nat → Prop} (o : Owns h it t F) : Shows h it t := by
  induction o with
  | none => exact .none
  | leaf h1 => exact .leaf h1
  | list h1 h2 _ _ _ ih => exact .list h1 h2 ih
  | dict h1 h2 _ _ _ ih => exact .dict h1 h2 ih

/-- The footprint may be replaced by an equivalent one. -/
theorem Owns.congr {h : Heap} {it : Item} {t : Json} {F G : Nat → Prop} (o : Owns h it t F)
    (e : ∀ x, F x ↔ G x) : Owns h it t G := (funext fun x => propext (e x) : F = G) ▸ o

/-- Memory that agrees on the footprint shows the same tree. -/
theorem Owns.frame {h h' : Heap} {it : Item} {t : Json} {F : Nat → Prop} (o : Owns h it t F)
    (e : ∀ x, F x → h'[x]? = h[x]?) : Owns h' it t F := by
  induction o with
  | none => exact .none
  | leaf h1 => exact .leaf ((e _ rfl).trans h1)
  | @list a is ts Fs h1 h2 _ h4 h5 ih =>
    refine .list ((e a (.inl rfl)).trans h1) h2 (fun i it t hi ht => ih i it t hi ht fun x hx => ?_) h4 h5
    exact e x (.inr ⟨i, (List.getElem?_eq_some_iff.mp hi).1, hx⟩)
  | @dict a m ts Fs h1 h2 _ h4 h5 ih =>
    refine .dict ((e a (.inl rfl)).trans h1) h2 (fun i k k' it t hi ht => ih i k k' it t hi ht fun x hx => ?_) h4 h5
    exact e x (.inr ⟨i, (List.getElem?_eq_some_iff.mp hi).1, hx⟩)

theorem Owns.lt {h : Heap} {it : Item} {t : Json} {F : Nat → Prop} (o : Owns h it t F) :
    ∀ x, F x → x < h.length := by
  induction o with
  | none => intro x hx; exact hx.elim
  | leaf h1 => rintro x rfl; exact (List.getElem?_eq_some_iff.mp h1).1
  | @list a is ts Fs h1 h2 _ _ _ ih =>
    rintro x (rfl | ⟨i, hi, hx⟩)
    · exact (List.getElem?_eq_some_iff.mp h1).1
    · exact ih i is[i] (ts[i]'(by omega)) (by simp [hi]) (by simp) x hx
  | @dict a m ts Fs h1 h2 _ _ _ ih =>
    rintro x (rfl | ⟨i, hi, hx⟩)
    · exact (List.getElem?_eq_some_iff.mp h1).1
    · have hl : m.length = ts.length := by
        have := congrArg List.length h2
        simpa using this
      exact ih i m[i].1 (ts[i]'(by omega)).1 m[i].2 (ts[i]'(by omega)).2 (by simp [hi]) (by simp) x hx

/-! ### Copies -/

/-- Copying several owned items into fresh memory. -/
theorem copyAll_spec {h : Heap} {f : Heap → Item → Exec (Heap × Item)} : ∀ {is : List Item} {ts : List Json}
    {Fs : Nat → Nat → Prop}, is.length = ts.length →
    (∀ (i : Nat) (it : Item) (t : Json), is[i]? = some it → ts[i]? = some t →
      ∀ h0 : Heap, (∀ x, Fs i x → h0[x]? = h[x]?) → ∃ (ext : Heap) (it' : Item) (F' : Nat → Prop), f h0 it = .ok (h0 ++ ext, it') ∧
        Owns (h0 ++ ext) it' t F' ∧ ∀ x, F' x → h0.length ≤ x) →
    ∀ h0 : Heap, (∀ i x, i < is.length → Fs i x → h0[x]? = h[x]?) →
      (∀ i x, i < is.length → Fs i x → x < h0.length) →
      ∃ (ext : Heap) (is' : List Item) (Fs' : Nat → Nat → Prop), copyAll f h0 is = .ok (h0 ++ ext, is') ∧ is'.length = ts.length ∧
        (∀ (i : Nat) (it : Item) (t : Json), is'[i]? = some it → ts[i]? = some t → Owns (h0 ++ ext) it t (Fs' i)) ∧
        (∀ i x, i < is'.length → Fs' i x → h0.length ≤ x ∧ x < (h0 ++ ext).length) ∧
        (∀ i j x, i < is'.length → j < is'.length → Fs' i x → Fs' j x → i = j) := by
  intro is
  induction is with
  | nil =>
    intro ts Fs hl _ h0 _ _
    cases ts with
    | nil =>
      refine ⟨[], [], fun _ _ => False, by simp [copyAll], rfl, by simp, by simp, by simp⟩
    | cons t ts => simp at hl
  | cons it is ih =>
    intro ts Fs hl hc h0 h1 h2
    cases ts with
    | nil => simp at hl
    | cons t ts =>
      obtain ⟨e1, it', F', he1, ho1, hf1⟩ := hc 0 it t rfl rfl h0 fun x hx => h1 0 x (by simp) hx
      have step : ∀ i x, i < is.length → Fs (i + 1) x → (h0 ++ e1)[x]? = h[x]? := by
        intro i x hi hx
        rw [List.getElem?_append_left (h2 (i + 1) x (by simpa using hi) hx)]
        exact h1 (i + 1) x (by simpa using hi) hx
      obtain ⟨e2, is', Fs', he2, hlen, ho2, hf2, hd2⟩ := ih (ts := ts) (Fs := fun i => Fs (i + 1)) (by simpa using hl)
        (fun i it t hi ht => hc (i + 1) it t hi ht) (h0 ++ e1) step (by
          intro i x hi hx
          have := h2 (i + 1) x (by simpa using hi) hx
          simp only [List.length_append]
          omega)
      refine ⟨e1 ++ e2, it' :: is', fun i => match i with | 0 => F' | i + 1 => Fs' i, ?_, by simp [hlen], ?_, ?_, ?_⟩
      · unfold copyAll
        rw [he1]
        simp only [Exec.bind_ok]
        rw [he2]
        simp
      · intro i jt u hi hu
        cases i with
        | zero =>
          cases hi
          cases hu
          refine ho1.frame fun x hx => ?_
          rw [← List.append_assoc, List.getElem?_append_left (ho1.lt x hx)]
        | succ i =>
          rw [← List.append_assoc]
          exact ho2 i jt u hi hu
      · intro i x hi hx
        cases i with
        | zero =>
          have := ho1.lt x hx
          refine ⟨hf1 x hx, ?_⟩
          rw [← List.append_assoc, List.length_append]
          omega
        | succ i =>
          have := hf2 i x (by simpa using hi) hx
          rw [← List.append_assoc]
          refine ⟨?_, this.2⟩
          have := this.1
          simp only [List.length_append] at this
          omega
      · intro i j x hi hj hx hy
        cases i with
        | zero =>
          cases j with
          | zero => rfl
          | succ j =>
            have a := ho1.lt x hx
            have b := (hf2 j x (by simpa using hj) hy).1
            omega
        | succ i =>
          cases j with
          | zero =>
            have a := ho1.lt x hy
            have b := (hf2 i x (by simpa using hi) hx).1
            omega
          | succ j =>
            have := hd2 i j x (by simpa using hi) (by simpa using hj) hx hy
            omega

/-- Induction on trees. -/
theorem Json.ind {P : Json → Prop} (h0 : P .none) (h1 : ∀ v t, P (.leaf v t))
    (h2 : ∀ ts : List Json, (∀ t ∈ ts, P t) → P (.list ts))
    (h3 : ∀ m : List (Key × Json), (∀ p ∈ m, P p.2) → P (.dict m)) : ∀ t, P t
  | .none => h0
  | .leaf v t => h1 v t
  | .list ts => h2 ts fun t _ => Json.ind h0 h1 h2 h3 t
  | .dict m => h3 m fun p _ => Json.ind h0 h1 h2 h3 p.2
termination_by t => sizeOf t
decreasing_by
  · rename_i h
    have := List.sizeOf_lt_of_mem h
    simp only [Json.list.sizeOf_spec]
    omega
  · rename_i h
    have := List.sizeOf_lt_of_mem h
    have : sizeOf p.2 < sizeOf p := by cases p; simp only [Prod.mk.sizeOf_spec]; omega
    simp only [Json.dict.sizeOf_spec]
    omega

/-- With this much room for the recursion, an item that shows the tree is copied into fresh memory, and the
copy shows the same tree. -/
def Copies (t : Json) (n : Nat) : Prop :=
  ∀ (h : Heap) (it : Item) (F : Nat → Prop), Owns h it t F → ∀ h0 : Heap, (∀ x, F x → h0[x]? = h[x]?) →
    ∃ (ext : Heap) (it' : Item) (F' : Nat → Prop), copyItem n h0 it = .ok (h0 ++ ext, it') ∧
      Owns (h0 ++ ext) it' t F' ∧ ∀ x, F' x → h0.length ≤ x

/-- The copy constructor makes a copy in fresh memory that shows the same tree. -/
theorem copyItem_spec (t : Json) : ∃ N, ∀ n, N ≤ n → Copies t n := by
  induction t using Json.ind with
  | h0 =>
    refine ⟨1, fun n hn h it F o h0 _ => ?_⟩
    cases o
    refine ⟨[], ⟨.none, .none⟩, _, ?_, .none, by simp⟩
    obtain ⟨n, rfl⟩ : ∃ m, n = m + 1 := ⟨n - 1, by omega⟩
    simp [copyItem]
  | h1 v t =>
    refine ⟨1, fun n hn h it F o h0 he => ?_⟩
    cases o with | @leaf a _ _ h1 => ?_
    refine ⟨[.leaf v t], ⟨.leaf, some h0.length⟩, _, ?_, .leaf (by simp), ?_⟩
    · obtain ⟨n, rfl⟩ : ∃ m, n = m + 1 := ⟨n - 1, by omega⟩
      have : h0[a]? = some (.leaf v t) := (he a rfl).trans h1
      simp [copyItem, this]
    · rintro x rfl; exact Nat.le_refl _
  | h2 ts ih =>
    obtain ⟨N, hN⟩ := uniform ts _ ih
    refine ⟨N + 1, fun n hn h it F o h0 he => ?_⟩
    cases o with | @list a is _ Fs h1 h2 h3 h4 h5 => ?_
    obtain ⟨n, rfl⟩ : ∃ m, n = m + 1 := ⟨n - 1, by omega⟩
    have ha : h0[a]? = some (.list is) := (he a (.inl rfl)).trans h1
    have hlt : ∀ i x, i < is.length → Fs i x → h0[x]? = h[x]? := fun i x hi hx => he x (.inr ⟨i, hi, hx⟩)
    obtain ⟨ext, is', Fs', hc, hlen, ho, hf, hd⟩ := copyAll_spec (f := copyItem n) (h := h) h2
      (fun i it t e1 e2 => hN n (by omega) t (List.mem_of_getElem? e2) h it (Fs i) (h3 i it t e1 e2)) h0 hlt (by
        intro i x hi hx
        have hx' : x < h.length := (h3 i is[i] (ts[i]'(by omega)) (by simp [hi]) (by simp)).lt x hx
        have := hlt i x hi hx
        rw [List.getElem?_eq_getElem hx'] at this
        exact (List.getElem?_eq_some_iff.mp this).1)
    refine ⟨ext ++ [.list is'], ⟨.list, some (h0 ++ ext).length⟩, _, ?_,
      .list (a := (h0 ++ ext).length) (is := is') (Fs := Fs') ?_ hlen (fun i it t e1 e2 => ?_) hd ?_, ?_⟩
    · unfold copyItem
      dsimp only
      rw [ha]
      dsimp only
      rw [hc]
      simp
    · rw [← List.append_assoc]; simp
    · refine (ho i it t e1 e2).frame fun x hx => ?_
      rw [← List.append_assoc, List.getElem?_append_left ((ho i it t e1 e2).lt x hx)]
    · intro i hi hx
      have := (hf i _ hi hx).2
      omega
    · rintro x (rfl | ⟨i, hi, hx⟩)
      · simp
      · exact (hf i x hi hx).1
  | h3 ts ih =>
    obtain ⟨N, hN⟩ := uniform ts (fun p n => Copies p.2 n) ih
    refine ⟨N + 1, fun n hn h it F o h0 he => ?_⟩
    cases o with | @dict a m _ Fs h1 h2 h3 h4 h5 => ?_
    obtain ⟨n, rfl⟩ : ∃ m, n = m + 1 := ⟨n - 1, by omega⟩
    have hml : m.length = ts.length := by
      have := congrArg List.length h2
      simpa using this
    have ha : h0[a]? = some (.dict m) := (he a (.inl rfl)).trans h1
    have hlt : ∀ i x, i < m.length → Fs i x → h0[x]? = h[x]? := fun i x hi hx => he x (.inr ⟨i, hi, hx⟩)
    obtain ⟨ext, is', Fs', hc, hlen, ho, hf, hd⟩ := copyAll_spec (f := copyItem n) (h := h)
      (is := m.map Prod.snd) (ts := ts.map Prod.snd) (Fs := Fs) (by simpa using hml)
      (fun i it t e1 e2 => by
        rw [List.getElem?_map] at e1 e2
        obtain ⟨p, hp, rfl⟩ := Option.map_eq_some_iff.mp e1
        obtain ⟨q, hq, rfl⟩ := Option.map_eq_some_iff.mp e2
        exact hN n (by omega) q (List.mem_of_getElem? hq) h p.2 (Fs i) (h3 i p.1 q.1 p.2 q.2 hp hq))
      h0 (by simpa using hlt) (by
        intro i x hi hx
        have hi : i < m.length := by simpa using hi
        have hx' : x < h.length :=
          (h3 i m[i].1 (ts[i]'(by omega)).1 m[i].2 (ts[i]'(by omega)).2 (by simp [hi]) (by simp)).lt x hx
        have := hlt i x hi hx
        rw [List.getElem?_eq_getElem hx'] at this
        exact (List.getElem?_eq_some_iff.mp this).1)
    have hlen' : is'.length = m.length := by rw [hlen, List.length_map, hml]
    refine ⟨ext ++ [.dict ((m.map Prod.fst).zip is')], ⟨.dict, some (h0 ++ ext).length⟩, _, ?_,
      .dict (a := (h0 ++ ext).length) (m := (m.map Prod.fst).zip is') (Fs := Fs') ?_ ?_
        (fun i k k' it t e1 e2 => ?_) ?_ ?_, ?_⟩
    · unfold copyItem
      dsimp only
      rw [ha]
      dsimp only
      rw [hc]
      simp
    · rw [← List.append_assoc]; simp
    · rw [List.map_fst_zip (by simp [hlen'])]; exact h2
    · rw [List.getElem?_zip_eq_some] at e1
      have := ho i it t e1.2 (by rw [List.getElem?_map, e2]; rfl)
      refine this.frame fun x hx => ?_
      rw [← List.append_assoc, List.getElem?_append_left (this.lt x hx)]
    · intro i j x hi hj
      exact hd i j x (by simp at hi; omega) (by simp at hj; omega)
    · intro i hi hx
      have := (hf i _ (by simp at hi; omega) hx).2
      omega
    · rintro x (rfl | ⟨i, hi, hx⟩)
      · simp
      · exact (hf i x (by simp at hi; omega) hx).1

end Verif.Js

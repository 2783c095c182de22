import Verif.Proofs.JsonStore

namespace Verif.Js

open Verif.Text Verif.Spec

/-! ### Replacing one child -/

theorem Owns.setList {h h' : Heap} {a i : Nat} {is : List Item} {ts : List Json} {Fs : Nat → Nat → Prop}
    {it' : Item} {u : Json} {F' G : Nat → Prop} (hi : i < is.length) (h2 : is.length = ts.length)
    (h3 : ∀ (i : Nat) (it : Item) (t : Json), is[i]? = some it → ts[i]? = some t → Owns h it t (Fs i))
    (h4 : ∀ i j x, i < is.length → j < is.length → Fs i x → Fs j x → i = j) (h5 : ∀ i, i < is.length → ¬ Fs i a)
    (ha : h'[a]? = some (.list (is.set i it'))) (hGa : ¬ G a) (hG : ∀ j x, j < is.length → Fs j x → ¬ G x)
    (hh : ∀ j x, j < is.length → j ≠ i → Fs j x → h'[x]? = h[x]?)
    (o : Owns h' it' u F') (hF : ∀ x, F' x → Fs i x ∨ G x) :
    ∃ F0, Owns h' ⟨.list, some a⟩ (.list (ts.set i u)) F0 ∧ ∀ x, F0 x → (x = a ∨ ∃ i, i < is.length ∧ Fs i x) ∨ G x := by
  refine ⟨_, .list (Fs := fun j => if j = i then F' else Fs j) ha (by simp [h2]) ?_ ?_ ?_, ?_⟩
  · intro j jt v e1 e2
    by_cases e : j = i
    · subst e
      rw [List.getElem?_set_self hi] at e1
      rw [List.getElem?_set_self (by omega)] at e2
      cases e1
      cases e2
      simpa using o
    · rw [List.getElem?_set_ne (Ne.symm e)] at e1 e2
      simp only [e, if_false]
      exact (h3 j jt v e1 e2).frame fun x hx => hh j x (List.getElem?_eq_some_iff.mp e1).1 e hx
  · intro j l x hj hl
    rw [List.length_set] at hj hl
    by_cases e : j = i <;> by_cases e' : l = i
    · intro _ _; rw [e, e']
    · simp only [e, e', if_true, if_false]
      intro hx hy
      rcases hF x hx with hx | hx
      · exact h4 i l x hi hl hx hy
      · exact absurd hx (hG l x hl hy)
    · simp only [e, e', if_true, if_false]
      intro hx hy
      rcases hF x hy with hy | hy
      · exact e (h4 j i x hj hi hx hy)
      · exact absurd hy (hG j x hj hx)
    · simp only [e, e', if_false]
      exact h4 j l x hj hl
  · intro j hj
    rw [List.length_set] at hj
    by_cases e : j = i
    · simp only [e, if_true]
      intro hx
      rcases hF a hx with hx | hx
      · exact h5 i hi hx
      · exact hGa hx
    · simp only [e, if_false]
      exact h5 j hj
  · rintro x (rfl | ⟨j, hj, hx⟩)
    · exact .inl (.inl rfl)
    · rw [List.length_set] at hj
      by_cases e : j = i
      · simp only [e, if_true] at hx
        rcases hF x hx with hx | hx
        · exact .inl (.inr ⟨i, hi, hx⟩)
        · exact .inr hx
      · simp only [e, if_false] at hx
        exact .inl (.inr ⟨j, hj, hx⟩)

theorem Owns.setDict {h h' : Heap} {a i : Nat} {k : Key} {m : List (Key × Item)} {ts : List (Key × Json)}
    {Fs : Nat → Nat → Prop} {it0 it' : Item} {u0 u : Json} {F' G : Nat → Prop} (hi : m[i]? = some (k, it0))
    (hti : ts[i]? = some (k, u0)) (h2 : m.map Prod.fst = ts.map Prod.fst)
    (h3 : ∀ (i : Nat) (k k' : Key) (it : Item) (t : Json), m[i]? = some (k, it) → ts[i]? = some (k', t) →
        Owns h it t (Fs i))
    (h4 : ∀ i j x, i < m.length → j < m.length → Fs i x → Fs j x → i = j) (h5 : ∀ i, i < m.length → ¬ Fs i a)
    (ha : h'[a]? = some (.dict (m.set i (k, it')))) (hGa : ¬ G a) (hG : ∀ j x, j < m.length → Fs j x → ¬ G x)
    (hh : ∀ j x, j < m.length → j ≠ i → Fs j x → h'[x]? = h[x]?)
    (o : Owns h' it' u F') (hF : ∀ x, F' x → Fs i x ∨ G x) :
    ∃ F0, Owns h' ⟨.dict, some a⟩ (.dict (ts.set i (k, u))) F0 ∧
      ∀ x, F0 x → (x = a ∨ ∃ i, i < m.length ∧ Fs i x) ∨ G x := by
  obtain ⟨hi', hm⟩ := List.getElem?_eq_some_iff.mp hi
  obtain ⟨hti', htm⟩ := List.getElem?_eq_some_iff.mp hti
  refine ⟨_, .dict (Fs := fun j => if j = i then F' else Fs j) ha ?_ ?_ ?_ ?_, ?_⟩
  · rw [List.map_set, List.map_set, h2]
  · intro j k1 k2 jt v e1 e2
    by_cases e : j = i
    · subst e
      rw [List.getElem?_set_self hi'] at e1
      rw [List.getElem?_set_self hti'] at e2
      cases e1
      cases e2
      simpa using o
    · rw [List.getElem?_set_ne (Ne.symm e)] at e1 e2
      simp only [e, if_false]
      exact (h3 j k1 k2 jt v e1 e2).frame fun x hx => hh j x (List.getElem?_eq_some_iff.mp e1).1 e hx
  · intro j l x hj hl
    rw [List.length_set] at hj hl
    by_cases e : j = i <;> by_cases e' : l = i
    · intro _ _; rw [e, e']
    · simp only [e, e', if_true, if_false]
      intro hx hy
      rcases hF x hx with hx | hx
      · exact h4 i l x hi' hl hx hy
      · exact absurd hx (hG l x hl hy)
    · simp only [e, e', if_true, if_false]
      intro hx hy
      rcases hF x hy with hy | hy
      · exact e (h4 j i x hj hi' hx hy)
      · exact absurd hy (hG j x hj hx)
    · simp only [e, e', if_false]
      exact h4 j l x hj hl
  · intro j hj
    rw [List.length_set] at hj
    by_cases e : j = i
    · simp only [e, if_true]
      intro hx
      rcases hF a hx with hx | hx
      · exact h5 i hi' hx
      · exact hGa hx
    · simp only [e, if_false]
      exact h5 j hj
  · rintro x (rfl | ⟨j, hj, hx⟩)
    · exact .inl (.inl rfl)
    · rw [List.length_set] at hj
      by_cases e : j = i
      · simp only [e, if_true] at hx
        rcases hF x hx with hx | hx
        · exact .inl (.inr ⟨i, hi', hx⟩)
        · exact .inr hx
      · simp only [e, if_false] at hx
        exact .inl (.inr ⟨j, hj, hx⟩)

/-! ### `at` -/

theorem atIdx_get {s : Store} {r : Ref} {it : Item} (i : Nat) (h : s.get r = .ok it) :
    atIdx s r i = (match it.val with
      | .none => .throw "empty"
      | some a =>
        match s.heap[a]? with
        | .none => .ub
        | some (.list is) => if i ≥ is.length then .throw "idx >= list size" else .ok (.elem a i)
        | some _ => .throw "non-list") := by
  unfold atIdx; rw [h]; rfl

theorem atKey_get {s : Store} {r : Ref} {it : Item} (k : Key) (h : s.get r = .ok it) :
    atKey s r k = (match it.val with
      | .none => .throw "empty"
      | some a =>
        match s.heap[a]? with
        | .none => .ub
        | some (.dict m) => if mapFind m k = .none then .throw "idx not contained in dict" else .ok (.field a k)
        | some _ => .throw "non-dict") := by
  unfold atKey; rw [h]; rfl

/-- The condition under which changes below the item at `r0`, with fresh objects `G`, are seen as the change of a
part of the tree. -/
def Update (s : Store) (r0 r : Ref) (t : Json) (F Fr : Nat → Prop) (p : List Step) : Prop :=
  ∀ (s' : Store) (G : Nat → Prop), Outside r0 G → (∀ x, F x → ¬ G x) →
    ∀ (it' : Item) (u : Json) (Fu : Nat → Prop), Local s s' r Fr G it' → Owns s'.heap it' u Fu →
      (∀ x, Fu x → Fr x ∨ G x) →
      ∃ (it0 : Item) (F' : Nat → Prop), Local s s' r0 F G it0 ∧ Owns s'.heap it0 (replaced t p u) F' ∧
        ∀ x, F' x → F x ∨ G x

/-- A path that exists in the tree is followed by `at` to an item that shows the part of the tree at its end,
and changing that item changes that part only. -/
theorem evalAt_some : ∀ {p : List Step} {s : Store} {r0 : Ref} {it : Item} {t tr : Json} {F : Nat → Prop},
    s.get r0 = .ok it → Owns s.heap it t F → Outside r0 F → lookup t p = some tr →
    ∃ (r : Ref) (itr : Item) (Fr : Nat → Prop), evalAt s r0 p = .ok r ∧ s.get r = .ok itr ∧
      Owns s.heap itr tr Fr ∧ Outside r Fr ∧ (∀ x, Fr x → F x) ∧ (∀ a, r.obj = some a → r0.obj = some a ∨ F a) ∧
      Update s r0 r t F Fr p := by
  intro p
  induction p with
  | nil =>
    intro s r0 it t tr F hg o hout hl
    cases hl
    refine ⟨r0, it, F, rfl, hg, o, hout, fun _ h => h, fun _ h => .inl h, ?_⟩
    intro s' G _ _ it' u Fu l ou hF
    exact ⟨it', Fu, l, by simpa [replaced] using ou, hF⟩
  | cons st p ih =>
    intro s r0 it t tr F hg o hout hl
    cases st with
    | idx i =>
      cases o with
      | none => simp [lookup, child] at hl
      | leaf h1 => simp [lookup, child] at hl
      | dict h1 h2 h3 h4 h5 => simp [lookup, child] at hl
      | @list a is ts Fs h1 h2 h3 h4 h5 =>
        simp only [lookup, child, Option.bind_eq_some_iff] at hl
        obtain ⟨c, hc, hl⟩ := hl
        have hi : i < is.length := by have := (List.getElem?_eq_some_iff.mp hc).1; omega
        have hci : is[i]? = some is[i] := by simp [hi]
        have hgc : s.get (.elem a i) = .ok is[i] := get_elem_of h1 hci
        obtain ⟨r, itr, Fr, k1, k2, k3, k4, k5, k6, k7⟩ := ih hgc (h3 i _ c hci hc)
          (fun b hb => by cases hb; exact h5 i hi) hl
        refine ⟨r, itr, Fr, ?_, k2, k3, k4, fun x hx => .inr ⟨i, hi, k5 x hx⟩, ?_, ?_⟩
        · unfold evalAt
          rw [atIdx_get i hg]
          dsimp only
          rw [h1]
          dsimp only
          rw [if_neg (by omega)]
          exact k1
        · intro b hb
          rcases k6 b hb with h | h
          · cases h; exact .inr (.inl rfl)
          · exact .inr (.inr ⟨i, hi, h⟩)
        · intro s' G hG0 hG it' u Fu l ou hF
          obtain ⟨it0, F', m1, m2, m3⟩ := k7 s' G (fun b hb => by cases hb; exact hG a (.inl rfl))
            (fun x hx => hG x (.inr ⟨i, hi, hx⟩)) it' u Fu l ou hF
          have ha' : s'.heap[a]? = some (.list (is.set i it0)) := by
            rw [m1.heap a (h5 i hi) (hG a (.inl rfl)), set_elem h1]
          obtain ⟨F0, n1, n2⟩ := Owns.setList (G := G) hi h2 h3 h4 h5 ha' (hG a (.inl rfl))
            (fun j x hj hx => hG x (.inr ⟨j, hj, hx⟩)) (by
              intro j x hj hji hx
              rw [m1.heap x (fun h => hji (h4 j i x hj hi hx h)) (hG x (.inr ⟨j, hj, hx⟩)), set_heap_other]
              intro e
              cases e
              exact h5 j hj hx) m2 m3
          refine ⟨_, F0, m1.up hg hout hG0 (a := a) rfl (.inl rfl) (fun x hx => .inr ⟨i, hi, hx⟩), ?_, n2⟩
          simpa only [replaced, hc] using n1
    | key k =>
      cases o with
      | none => simp [lookup, child] at hl
      | leaf h1 => simp [lookup, child] at hl
      | list h1 h2 h3 h4 h5 => simp [lookup, child] at hl
      | @dict a m ts Fs h1 h2 h3 h4 h5 =>
        simp only [lookup, child, Option.bind_eq_some_iff] at hl
        obtain ⟨c, hc, hl⟩ := hl
        obtain ⟨i, c1, g1, g2, g3, g4, g5⟩ := same_idx h2.symm hc
        have hi : i < m.length := (List.getElem?_eq_some_iff.mp g2).1
        have hgc : s.get (.field a k) = .ok c1 := get_field_of h1 g3
        obtain ⟨r, itr, Fr, k1, k2, k3, k4, k5, k6, k7⟩ := ih hgc (h3 i k k c1 c g2 g1)
          (fun b hb => by cases hb; exact h5 i hi) hl
        refine ⟨r, itr, Fr, ?_, k2, k3, k4, fun x hx => .inr ⟨i, hi, k5 x hx⟩, ?_, ?_⟩
        · unfold evalAt
          rw [atKey_get k hg]
          dsimp only
          rw [h1]
          dsimp only
          rw [if_neg (by rw [g3]; simp)]
          exact k1
        · intro b hb
          rcases k6 b hb with h | h
          · cases h; exact .inr (.inl rfl)
          · exact .inr (.inr ⟨i, hi, h⟩)
        · intro s' G hG0 hG it' u Fu l ou hF
          obtain ⟨it0, F', m1, m2, m3⟩ := k7 s' G (fun b hb => by cases hb; exact hG a (.inl rfl))
            (fun x hx => hG x (.inr ⟨i, hi, hx⟩)) it' u Fu l ou hF
          have ha' : s'.heap[a]? = some (.dict (m.set i (k, it0))) := by
            rw [m1.heap a (h5 i hi) (hG a (.inl rfl)), set_field h1, g5]
          obtain ⟨F0, n1, n2⟩ := Owns.setDict (G := G) g2 g1 h2 h3 h4 h5 ha' (hG a (.inl rfl))
            (fun j x hj hx => hG x (.inr ⟨j, hj, hx⟩)) (by
              intro j x hj hji hx
              rw [m1.heap x (fun h => hji (h4 j i x hj hi hx h)) (hG x (.inr ⟨j, hj, hx⟩)), set_heap_other]
              intro e
              cases e
              exact h5 j hj hx) m2 m3
          refine ⟨_, F0, m1.up hg hout hG0 (a := a) rfl (.inl rfl) (fun x hx => .inr ⟨i, hi, hx⟩), ?_, n2⟩
          simp only [replaced, hc]
          rw [g4]
          exact n1

/-- A path that does not exist in the tree makes `at` throw. -/
theorem evalAt_none : ∀ {p : List Step} {s : Store} {r0 : Ref} {it : Item} {t : Json},
    s.get r0 = .ok it → Shows s.heap it t → lookup t p = .none → ∃ e, evalAt s r0 p = .throw e := by
  intro p
  induction p with
  | nil => intro s r0 it t _ _ h; cases h
  | cons st p ih =>
    intro s r0 it t hg o hl
    cases st with
    | idx i =>
      unfold evalAt
      rw [atIdx_get i hg]
      cases o with
      | none => exact ⟨_, rfl⟩
      | leaf h1 => dsimp only; rw [h1]; exact ⟨_, rfl⟩
      | dict h1 h2 h3 => dsimp only; rw [h1]; exact ⟨_, rfl⟩
      | @list a is ts h1 h2 h3 =>
        dsimp only
        rw [h1]
        dsimp only
        by_cases hi : i ≥ is.length
        · rw [if_pos hi]; exact ⟨_, rfl⟩
        · rw [if_neg hi]
          have hi : i < is.length := by omega
          have hci : is[i]? = some is[i] := by simp [hi]
          have hct : ts[i]? = some (ts[i]'(by omega)) := by simp
          simp only [lookup, child, hct, Option.bind_some] at hl
          exact ih (get_elem_of h1 hci) (h3 i _ _ hci hct) hl
    | key k =>
      unfold evalAt
      rw [atKey_get k hg]
      cases o with
      | none => exact ⟨_, rfl⟩
      | leaf h1 => dsimp only; rw [h1]; exact ⟨_, rfl⟩
      | list h1 h2 h3 => dsimp only; rw [h1]; exact ⟨_, rfl⟩
      | @dict a m ts h1 h2 h3 =>
        dsimp only
        rw [h1]
        dsimp only
        cases hf : mapFind m k with
        | none => rw [if_pos rfl]; exact ⟨_, rfl⟩
        | some v =>
          rw [if_neg (by simp)]
          obtain ⟨i, c, g1, g2, g3, -, -⟩ := same_idx h2 hf
          simp only [lookup, child, g3, Option.bind_some] at hl
          exact ih (get_field_of h1 hf) (h3 i k k v c g1 g2) hl

end Verif.Js

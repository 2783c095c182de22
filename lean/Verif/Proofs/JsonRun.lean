import Verif.Proofs.JsonTouch

namespace Verif.Js

open Verif.Text Verif.Spec

/-! ### The state of a program -/

/-- Every variable owns a tree, the trees share no object. -/
def Inv (s : Store) (ts : List Json) : Prop :=
  s.vars.length = ts.length ∧ ∃ Fs : Nat → Nat → Prop,
    (∀ (x : Nat) (it : Item) (t : Json), s.vars[x]? = some it → ts[x]? = some t → Owns s.heap it t (Fs x)) ∧
    ∀ x y a, x < ts.length → y < ts.length → Fs x a → Fs y a → x = y

theorem outside_var (x : Nat) (F : Nat → Prop) : Outside (.var x) F := fun _ h => by cases h

theorem Inv.var {s : Store} {ts : List Json} (inv : Inv s ts) {x : Nat} {t : Json} (hx : ts[x]? = some t) :
    ∃ (it : Item) (F : Nat → Prop), s.get (.var x) = .ok it ∧ Owns s.heap it t F ∧
      ∀ (s' : Store) (it' : Item) (u : Json) (F' : Nat → Prop), Local s s' (.var x) F (Fresh s) it' →
        Owns s'.heap it' u F' → (∀ a, F' a → F a ∨ Fresh s a) → Inv s' (ts.set x u) := by
  obtain ⟨hl, Fs, ho, hd⟩ := inv
  have hxl : x < ts.length := (List.getElem?_eq_some_iff.mp hx).1
  have hv : s.vars[x]? = some (s.vars[x]'(by omega)) := by simp
  refine ⟨_, Fs x, rd_iff.mpr hv, ho x _ t hv hx, ?_⟩
  intro s' it' u F' l o hF
  have hvars : s'.vars = s.vars.set x it' := l.vars
  have fr : ∀ y a, y < ts.length → y ≠ x → Fs y a → s'.heap[a]? = s.heap[a]? := by
    intro y a hy hyx ha
    have hy' : s.vars[y]? = some (s.vars[y]'(by omega)) := by simp
    have hyt : ts[y]? = some ts[y] := by simp [hy]
    have := (ho y _ _ hy' hyt).lt a ha
    exact l.heap a (fun h => hyx (hd y x a hy hxl ha h)) (fun h => by unfold Fresh at h; omega)
  refine ⟨by rw [hvars]; simp [hl], fun y => if y = x then F' else Fs y, ?_, ?_⟩
  · intro y jt v e1 e2
    rw [hvars] at e1
    by_cases e : y = x
    · subst e
      rw [List.getElem?_set_self (by omega)] at e1
      rw [List.getElem?_set_self hxl] at e2
      cases e1
      cases e2
      simpa using o
    · rw [List.getElem?_set_ne (Ne.symm e)] at e1 e2
      simp only [e, if_false]
      exact (ho y jt v e1 e2).frame fun a ha => fr y a (List.getElem?_eq_some_iff.mp e2).1 e ha
  · have key : ∀ y a, y < ts.length → y ≠ x → Fs y a → ¬ F' a := by
      intro y a hy hyx ha h
      rcases hF a h with h | h
      · exact hyx (hd y x a hy hxl ha h)
      · have hy' : s.vars[y]? = some (s.vars[y]'(by omega)) := by simp
        have hyt : ts[y]? = some ts[y] := by simp [hy]
        have := (ho y _ _ hy' hyt).lt a ha
        unfold Fresh at h
        omega
    intro y z a hy hz
    rw [List.length_set] at hy hz
    by_cases e : y = x <;> by_cases e' : z = x
    · intro _ _; rw [e, e']
    · simp only [e, e', if_true, if_false]
      intro h h'
      exact absurd h (key z a hz e' h')
    · simp only [e, e', if_true, if_false]
      intro h h'
      exact absurd h' (key y a hy e h)
    · simp only [e, e', if_false]
      exact hd y z a hy hz

theorem Inv.push {s : Store} {ts : List Json} (inv : Inv s ts) {ext : Heap} {it : Item} {u : Json} {F : Nat → Prop}
    (o : Owns (s.heap ++ ext) it u F) (hF : ∀ x, F x → Fresh s x) :
    Inv (({ s with heap := s.heap ++ ext } : Store).push it) (ts ++ [u]) := by
  obtain ⟨hl, Fs, ho, hd⟩ := inv
  have low : ∀ y a, y < ts.length → Fs y a → a < s.heap.length := by
    intro y a hy ha
    have hy' : s.vars[y]? = some (s.vars[y]'(by omega)) := by simp
    have hyt : ts[y]? = some ts[y] := by simp [hy]
    exact (ho y _ _ hy' hyt).lt a ha
  refine ⟨by simp [Store.push, hl], fun y => if y < ts.length then Fs y else F, ?_, ?_⟩
  · intro y jt v e1 e2
    simp only [Store.push] at e1 ⊢
    by_cases c : y < ts.length
    · rw [List.getElem?_append_left (by omega)] at e1
      rw [List.getElem?_append_left c] at e2
      simp only [c, if_true]
      exact (ho y jt v e1 e2).frame fun a ha => List.getElem?_append_left (low y a c ha)
    · have : y = ts.length := by
        have := (List.getElem?_eq_some_iff.mp e2).1
        simp at this
        omega
      subst this
      rw [← hl] at e1
      simp at e1 e2
      subst e1
      subst e2
      simpa using o
  · intro y z a hy hz
    rw [List.length_append] at hy hz
    simp only [List.length_cons, List.length_nil] at hy hz
    by_cases c : y < ts.length <;> by_cases c' : z < ts.length <;> simp only [c, c', if_true, if_false]
    · exact hd y z a c c'
    · intro h h'
      have := low y a c h
      have := hF a h'
      unfold Fresh at this
      omega
    · intro h h'
      have := low z a c' h'
      have := hF a h
      unfold Fresh at this
      omega
    · intro _ _; omega

theorem Inv.grow {s : Store} {ts : List Json} (inv : Inv s ts) (ext : Heap) :
    Inv { s with heap := s.heap ++ ext } ts := by
  obtain ⟨hl, Fs, ho, hd⟩ := inv
  refine ⟨hl, Fs, ?_, hd⟩
  intro y jt v e1 e2
  have := ho y jt v e1 e2
  exact this.frame fun a ha => List.getElem?_append_left (this.lt a ha)

/-! ### Assignment and append on one item -/

theorem Local.grow {s : Store} {r : Ref} {it : Item} {F : Nat → Prop} (h : s.get r = .ok it) (ext : Heap) :
    Local s { s with heap := s.heap ++ ext } r F (Fresh s) it := by
  refine ⟨get_grow h, (set_get_vars h).symm, fun b _ hb => ?_⟩
  rw [set_get_heap h]
  exact List.getElem?_append_left (Nat.lt_of_not_le hb)

theorem Fresh.grow {s : Store} {ext : Heap} {x : Nat} (h : Fresh { s with heap := s.heap ++ ext } x) : Fresh s x := by
  simp only [Fresh, List.length_append] at h ⊢
  omega

theorem assign_spec {n : Nat} {s : Store} {dst src : Ref} {i0 it : Item} {u : Json} {F Fd : Nat → Prop}
    (hd : s.get dst = .ok i0) (hs : s.get src = .ok it) (o : Owns s.heap it u F) (hc : Copies u n) :
    ∃ (s' : Store) (it' : Item) (F' : Nat → Prop), assign n s dst src = (s', .ok ()) ∧
      Local s s' dst Fd (Fresh s) it' ∧ Owns s'.heap it' u F' ∧ ∀ x, F' x → Fresh s x := by
  obtain ⟨ext, it', F', h1, h2, h3⟩ := hc s.heap it F o s.heap fun _ _ => rfl
  let s2 : Store := { s with heap := s.heap ++ ext }
  have g2 : s2.get dst = .ok i0 := get_grow hd
  refine ⟨s2.set dst it', it', F', ?_, ⟨get_set g2, set_vars rfl, fun b _ hb => ?_⟩, ?_, h3⟩
  · unfold assign
    rw [hs]
    dsimp only
    rw [h1]
  · exact set_heap_congr g2 (List.getElem?_append_left (Nat.lt_of_not_le hb))
  · refine h2.frame fun x hx => ?_
    rw [set_heap_other]
    intro e
    have := get_lt hd e
    have := h3 x hx
    omega

theorem append_get {n : Nat} {s : Store} {r : Ref} {it ji : Item} (h : s.get r = .ok it)
    (hv : ¬ (it.val = .none ∨ it.kind = .none)) {a : Nat} (ha : it.val = some a) :
    append n s r ji = (match s.heap[a]? with
        | .none => (s, .ub)
        | some (.list is) =>
          match copyItem n s.heap ji with
          | .ok (h, tmp) => ({ s with heap := h.set a (.list (is ++ [tmp])) }, .ok ())
          | .throw e => (s, .throw e)
          | .ub => (s, .ub)
        | some _ => (s, .throw "non-list")) := by
  unfold append
  rw [h]
  dsimp only
  rw [if_neg hv]
  rw [h]
  dsimp only
  rw [ha]
  rfl

theorem append_list {n : Nat} {s : Store} {r : Ref} {ji : Item} {a : Nat} {ts : List Json} {u : Json}
    {F Fj : Nat → Prop} (hg : s.get r = .ok ⟨.list, some a⟩) (o : Owns s.heap ⟨.list, some a⟩ (.list ts) F)
    (hout : Outside r F) (oj : Owns s.heap ji u Fj) (hc : Copies u n) :
    ∃ (s' : Store) (F' : Nat → Prop), append n s r ji = (s', .ok ()) ∧ Local s s' r F (Fresh s) ⟨.list, some a⟩ ∧
      Owns s'.heap ⟨.list, some a⟩ (.list (ts ++ [u])) F' ∧ ∀ x, F' x → F x ∨ Fresh s x := by
  cases o with
  | @list _ is _ Fs h1 h2 h3 h4 h5 =>
    obtain ⟨ext, tmp, Ft, c1, c2, c3⟩ := hc s.heap ji Fj oj s.heap fun _ _ => rfl
    have hlt := (List.getElem?_eq_some_iff.mp h1).1
    let h' : Heap := (s.heap ++ ext).set a (.list (is ++ [tmp]))
    have other : ∀ x, x ≠ a → h'[x]? = (s.heap ++ ext)[x]? := fun x hx => by
      simp [h', List.getElem?_set, Ne.symm hx]
    have low : ∀ j x, j < is.length → Fs j x → x < s.heap.length := by
      intro j x hj hx
      exact (h3 j is[j] (ts[j]'(by omega)) (by simp [hj]) (by simp)).lt x hx
    refine ⟨{ s with heap := h' }, _, ?_, ?_,
      .list (is := is ++ [tmp]) (Fs := fun j => if j < is.length then Fs j else Ft) ?_ (by simp [h2]) ?_ ?_ ?_, ?_⟩
    · rw [append_get (a := a) hg (by simp) rfl, h1]
      dsimp only
      rw [c1]
    · refine ⟨?_, (set_get_vars hg).symm, fun b hb hb' => ?_⟩
      · rw [← hg]
        refine get_congr rfl fun b hb => ?_
        show h'[b]? = _
        have : b ≠ a := by rintro rfl; exact hout b hb (.inl rfl)
        rw [other b this]
        exact List.getElem?_append_left (get_lt hg hb)
      · rw [set_get_heap hg]
        show h'[b]? = _
        have : b ≠ a := by rintro rfl; exact hb (.inl rfl)
        rw [other b this]
        exact List.getElem?_append_left (Nat.lt_of_not_le hb')
    · simp only [h']
      rw [List.getElem?_set_self]
      simp
      omega
    · intro j jt v e1 e2
      by_cases c : j < is.length
      · rw [List.getElem?_append_left c] at e1
        rw [List.getElem?_append_left (by omega)] at e2
        simp only [c, if_true]
        refine (h3 j jt v e1 e2).frame fun x hx => ?_
        show h'[x]? = _
        rw [other x (by rintro rfl; exact h5 j c hx)]
        exact List.getElem?_append_left (low j x c hx)
      · have : j = is.length := by
          have := (List.getElem?_eq_some_iff.mp e1).1
          simp at this
          omega
        subst this
        rw [h2] at e2
        simp at e1 e2
        subst e1
        subst e2
        simp only [Nat.lt_irrefl, if_false]
        refine c2.frame fun x hx => ?_
        refine other x ?_
        have := c3 x hx
        omega
    · intro j l x hj hl
      rw [List.length_append] at hj hl
      simp only [List.length_cons, List.length_nil] at hj hl
      by_cases c : j < is.length <;> by_cases c' : l < is.length <;> simp only [c, c', if_true, if_false]
      · exact h4 j l x c c'
      · intro h h'
        have := low j x c h
        have := c3 x h'
        omega
      · intro h h'
        have := low l x c' h'
        have := c3 x h
        omega
      · intro _ _; omega
    · intro j hj
      by_cases c : j < is.length
      · simp only [c, if_true]; exact h5 j c
      · simp only [c, if_false]
        intro h
        have := c3 a h
        omega
    · rintro x (rfl | ⟨j, hj, hx⟩)
      · exact .inl (.inl rfl)
      · by_cases c : j < is.length
        · simp only [c, if_true] at hx; exact .inl (.inr ⟨j, c, hx⟩)
        · simp only [c, if_false] at hx; exact .inr (c3 x hx)

theorem append_spec {n : Nat} {s : Store} {r : Ref} {it ji : Item} {t u : Json} {F Fj : Nat → Prop}
    (hg : s.get r = .ok it) (o : Owns s.heap it t F) (hout : Outside r F) (oj : Owns s.heap ji u Fj)
    (houtj : Outside r Fj) (hc : Copies u n) :
    (appended t u = .none ∧ ∃ e, append n s r ji = (s, .throw e)) ∨
    ∃ (c : Json) (s' : Store) (it' : Item) (F' : Nat → Prop), appended t u = some c ∧ append n s r ji = (s', .ok ()) ∧
      Local s s' r F (Fresh s) it' ∧ Owns s'.heap it' c F' ∧ ∀ x, F' x → F x ∨ Fresh s x := by
  cases o with
  | @leaf a v ty h1 =>
    left
    refine ⟨rfl, "non-list", ?_⟩
    rw [append_get (a := a) hg (by simp) rfl, h1]
  | @dict a m ts Fs h1 h2 h3 h4 h5 =>
    left
    refine ⟨rfl, "non-list", ?_⟩
    rw [append_get (a := a) hg (by simp) rfl, h1]
  | @list a is ts Fs h1 h2 h3 h4 h5 =>
    right
    obtain ⟨s', F', k1, k2, k3, k4⟩ := append_list hg (.list h1 h2 h3 h4 h5) hout oj hc
    exact ⟨_, s', _, F', rfl, k1, k2, k3, k4⟩
  | none =>
    right
    let a := s.heap.length
    let s0 := s.alloc (.list [])
    let s1 := s0.set r ⟨.list, some a⟩
    have g0 : s0.get r = .ok ⟨.none, .none⟩ := get_grow hg
    have g1 : s1.get r = .ok ⟨.list, some a⟩ := get_set g0
    have hra : r.obj ≠ some a := fun e => by have := get_lt hg e; exact Nat.lt_irrefl _ this
    have c0 : s0.heap[a]? = some (.list []) := by simp [s0, a, Store.alloc]
    have c1 : s1.heap[a]? = some (.list []) := by rw [set_heap_other hra, c0]
    have l1 : s1.heap.length = s.heap.length + 1 := by rw [set_heap_len]; simp [s0, Store.alloc]
    have lo1 : Local s s1 r (fun _ => False) (Fresh s) ⟨.list, some a⟩ := by
      refine ⟨g1, set_vars rfl, fun b _ hb => set_heap_congr g0 ?_⟩
      simp [s0, Store.alloc, List.getElem?_append_left (Nat.lt_of_not_le hb)]
    have o1 : Owns s1.heap ⟨.list, some a⟩ (.list []) fun x => x = a ∨ ∃ i, i < ([] : List Item).length ∧ False :=
      .list (Fs := fun _ _ => False) c1 rfl (by simp) (by simp) (by simp)
    have oj1 : Owns s1.heap ji u Fj := by
      refine oj.frame fun x hx => ?_
      rw [set_heap_other (fun e => houtj x e hx)]
      exact List.getElem?_append_left (oj.lt x hx)
    obtain ⟨s', F', k1, k2, k3, k4⟩ := append_list (n := n) g1 o1 (fun b hb h => by
      rcases h with rfl | ⟨i, _, hf⟩
      · exact hra hb
      · exact hf) oj1 hc
    refine ⟨.list [u], s', _, F', rfl, ?_, Local.trans hg lo1 k2 ?_ ?_, k3, ?_⟩
    · rw [← k1, append_get (a := a) g1 (by simp) rfl]
      unfold append
      rw [hg]
      dsimp only
      rw [if_pos (Or.inl rfl),
        show ((s.alloc (.list [])).set r ⟨.list, some s.heap.length⟩).get r = .ok ⟨.list, some s.heap.length⟩ from g1]
      rfl
    · rintro x (rfl | ⟨i, _, hf⟩)
      · exact .inr (Nat.le_refl _)
      · exact hf.elim
    · intro x hx
      simp only [Fresh] at hx ⊢
      omega
    · intro x hx
      rcases k4 x hx with (rfl | ⟨i, _, hf⟩) | h
      · exact .inr (Nat.le_refl _)
      · exact hf.elim
      · right
        simp only [Fresh] at h ⊢
        omega

/-! ### Trees -/

/-- Walking a path removes nothing. -/
theorem lookup_walk : ∀ {p : List Step} {t : Json} {q : List Step} {c : Json}, lookup t q = some c →
    ∃ c', lookup (walk t p).1 q = some c' := by
  intro p
  induction p with
  | nil => intro t q c h; exact ⟨c, by simpa [walk] using h⟩
  | cons st p ih =>
    intro t q c h
    cases q with
    | nil => exact ⟨_, rfl⟩
    | cons st' q =>
      cases t with
      | none => simp [lookup, child] at h
      | leaf v ty => simp [lookup, child] at h
      | list ts =>
        cases st' with
        | key k => simp [lookup, child] at h
        | idx j =>
          simp only [lookup, child, Option.bind_eq_some_iff] at h
          obtain ⟨d, hd, h⟩ := h
          cases st with
          | key k => exact ⟨c, by simp [walk, lookup, child, hd, h]⟩
          | idx i =>
            cases hi : ts[i]? with
            | none => exact ⟨c, by simp [walk, lookup, child, hd, h, hi]⟩
            | some e =>
              by_cases eq : i = j
              · subst eq
                rw [hi] at hd
                cases hd
                obtain ⟨c', hc'⟩ := ih h
                refine ⟨c', ?_⟩
                simp only [walk, hi, lookup, child]
                rw [List.getElem?_set_self (List.getElem?_eq_some_iff.mp hi).1]
                exact hc'
              · refine ⟨c, ?_⟩
                simp only [walk, hi, lookup, child]
                rw [List.getElem?_set_ne eq, hd]
                exact h
      | dict m =>
        cases st' with
        | idx j => simp [lookup, child] at h
        | key k' =>
          simp only [lookup, child, Option.bind_eq_some_iff] at h
          obtain ⟨d, hd, h⟩ := h
          cases st with
          | idx i => exact ⟨c, by simp [walk, lookup, child, hd, h]⟩
          | key k =>
            cases hk : mapFind m k with
            | none =>
              have : k' ≠ k := by rintro rfl; rw [hk] at hd; cases hd
              exact ⟨c, by simp [walk, lookup, child, hk, mapFind_mapPut_ne this, hd, h]⟩
            | some e =>
              by_cases eq : k' = k
              · subst eq
                rw [hk] at hd
                cases hd
                obtain ⟨c', hc'⟩ := ih h
                exact ⟨c', by simp [walk, lookup, child, hk, mapFind_mapSet hk, hc']⟩
              · exact ⟨c, by simp [walk, lookup, child, hk, mapFind_mapSet_ne eq, hd, h]⟩

/-- Where a walk arrives there is an item. -/
theorem lookup_walk_self : ∀ {p : List Step} {t : Json}, (walk t p).2 = true → ∃ c, lookup (walk t p).1 p = some c := by
  intro p
  induction p with
  | nil => intro t _; exact ⟨_, rfl⟩
  | cons st p ih =>
    intro t h
    cases t with
    | none =>
      cases st with
      | idx i => simp [walk] at h
      | key k =>
        simp only [walk] at h
        obtain ⟨c, hc⟩ := ih h
        exact ⟨c, by simp [walk, lookup, child, mapFind, hc]⟩
    | leaf v ty => cases st <;> simp [walk] at h
    | list ts =>
      cases st with
      | key k => simp [walk] at h
      | idx i =>
        cases hi : ts[i]? with
        | none => simp [walk, hi] at h
        | some e =>
          simp only [walk, hi] at h
          obtain ⟨c, hc⟩ := ih h
          refine ⟨c, ?_⟩
          simp only [walk, hi, lookup, child]
          rw [List.getElem?_set_self (List.getElem?_eq_some_iff.mp hi).1]
          exact hc
    | dict m =>
      cases st with
      | idx i => simp [walk] at h
      | key k =>
        cases hk : mapFind m k with
        | none =>
          simp only [walk, hk] at h
          obtain ⟨c, hc⟩ := ih h
          exact ⟨c, by simp [walk, lookup, child, hk, mapFind_mapPut, hc]⟩
        | some e =>
          simp only [walk, hk] at h
          obtain ⟨c, hc⟩ := ih h
          exact ⟨c, by simp [walk, lookup, child, hk, mapFind_mapSet hk, hc]⟩

/-! ### Statements -/

theorem getAll_spec {s : Store} {ts : List Json} (inv : Inv s ts) : ∀ {xs : List Nat} {us : List Json},
    chosen ts xs = some us → ∃ (its : List Item) (Gs : Nat → Nat → Prop), getAll s xs = .ok its ∧
      its.length = us.length ∧
      ∀ (i : Nat) (it : Item) (u : Json), its[i]? = some it → us[i]? = some u → Owns s.heap it u (Gs i) := by
  intro xs
  induction xs with
  | nil => intro us h; cases h; exact ⟨[], fun _ _ => False, rfl, rfl, by simp⟩
  | cons x xs ih =>
    intro us h
    simp only [chosen, Option.bind_eq_some_iff, Option.map_eq_some_iff] at h
    obtain ⟨t, ht, us', hus, rfl⟩ := h
    obtain ⟨it, F, g1, g2, -⟩ := inv.var ht
    obtain ⟨its, Gs, k1, k2, k3⟩ := ih hus
    refine ⟨it :: its, fun i => match i with | 0 => F | i + 1 => Gs i, ?_, by simp [k2], ?_⟩
    · rw [getAll, g1]
      simp only [Exec.bind_ok]
      rw [k1]
      rfl
    · intro i jt v e1 e2
      cases i with
      | zero => cases e1; cases e2; exact g2
      | succ i => exact k3 i jt v e1 e2

theorem pick_mem {ts : List Json} : ∀ {xs : List Nat} {us : List Json}, chosen ts xs = some us → us.length = xs.length := by
  intro xs
  induction xs with
  | nil => intro us h; cases h; rfl
  | cons x xs ih =>
    intro us h
    simp only [chosen, Option.bind_eq_some_iff, Option.map_eq_some_iff] at h
    obtain ⟨t, ht, us', hus, rfl⟩ := h
    simp [ih hus]

/-- Copies of several variables. -/
theorem copyVars {s : Store} {ts us : List Json} {xs : List Nat} {n : Nat} (inv : Inv s ts) (hp : chosen ts xs = some us)
    (hc : ∀ u ∈ us, Copies u n) :
    ∃ (its is' : List Item) (ext : Heap) (Fs' : Nat → Nat → Prop), getAll s xs = .ok its ∧
      copyAll (copyItem n) s.heap its = .ok (s.heap ++ ext, is') ∧ is'.length = us.length ∧
      (∀ (i : Nat) (it : Item) (t : Json), is'[i]? = some it → us[i]? = some t → Owns (s.heap ++ ext) it t (Fs' i)) ∧
      (∀ i x, i < is'.length → Fs' i x → s.heap.length ≤ x ∧ x < (s.heap ++ ext).length) ∧
      (∀ i j x, i < is'.length → j < is'.length → Fs' i x → Fs' j x → i = j) := by
  obtain ⟨its, Gs, k1, k2, k3⟩ := getAll_spec inv hp
  obtain ⟨ext, is', Fs', m1, m2, m3, m4, m5⟩ := copyAll_spec (f := copyItem n) (h := s.heap) (Fs := Gs) k2
    (fun i it t e1 e2 => hc t (List.mem_of_getElem? e2) s.heap it (Gs i) (k3 i it t e1 e2)) s.heap
    (fun _ _ _ _ => rfl)
    (fun i x hi hx => (k3 i its[i] (us[i]'(by omega)) (by simp [hi]) (by simp)).lt x hx)
  exact ⟨its, is', ext, Fs', k1, m1, m2, m3, m4, m5⟩

/-- Every statement does on items what it does on trees. -/
theorem exec_spec (ts : List Json) (c : Cmd) (hu : (treeExec ts c).2 ≠ .undefined) :
    ∃ N, ∀ n, N ≤ n → ∀ s, Inv s ts →
      Inv (exec n s c).1 (treeExec ts c).1 ∧ replyOf (exec n s c).2 = (treeExec ts c).2 := by
  cases c with
  | empty =>
    refine ⟨0, fun n _ s inv => ⟨?_, rfl⟩⟩
    have := inv.push (ext := []) (it := .empty) (u := .none) (F := fun _ => False) .none (fun _ h => h.elim)
    simpa [exec, treeExec] using this
  | leaf v t =>
    refine ⟨0, fun n _ s inv => ⟨?_, rfl⟩⟩
    exact inv.push (ext := [.leaf v (if t = .auto then parseType v else t)]) (it := ⟨.leaf, some s.heap.length⟩)
      (.leaf (by simp)) (by rintro x rfl; exact Nat.le_refl _)
  | list xs =>
    simp only [treeExec] at hu ⊢
    cases hp : chosen ts xs with
    | none => rw [hp] at hu; exact absurd rfl hu
    | some us =>
      obtain ⟨N, hN⟩ := uniform us Copies fun u _ => copyItem_spec u
      refine ⟨N, fun n hn s inv => ?_⟩
      obtain ⟨its, is', ext, Fs', k1, k2, k3, k4, k5, k6⟩ := copyVars inv hp (hN n hn)
      have e : exec n s (.list xs) = (({ s with heap := s.heap ++ (ext ++ [.list is']) } : Store).push
          ⟨.list, some (s.heap ++ ext).length⟩, .ok ()) := by
        rw [exec, k1]
        dsimp only
        rw [k2]
        simp only [List.append_assoc]
      rw [e]
      refine ⟨inv.push (.list (is := is') (Fs := Fs') ?_ k3 ?_ k6 ?_) ?_, rfl⟩
      · rw [← List.append_assoc]; simp
      · intro i it t e1 e2
        refine (k4 i it t e1 e2).frame fun x hx => ?_
        rw [← List.append_assoc, List.getElem?_append_left ((k4 i it t e1 e2).lt x hx)]
      · intro i hi hx
        have := (k5 i _ hi hx).2
        omega
      · rintro x (rfl | ⟨i, hi, hx⟩)
        · simp [Fresh]
        · exact (k5 i x hi hx).1
  | dict kxs =>
    simp only [treeExec] at hu ⊢
    by_cases hsort : KeysSorted kxs
    · rw [if_neg (by simpa using hsort)] at hu ⊢
      cases hp : chosen ts (kxs.map Prod.snd) with
      | none => rw [hp] at hu; exact absurd rfl hu
      | some us =>
        obtain ⟨N, hN⟩ := uniform us Copies fun u _ => copyItem_spec u
        refine ⟨N, fun n hn s inv => ?_⟩
        obtain ⟨its, is', ext, Fs', k1, k2, k3, k4, k5, k6⟩ := copyVars inv hp (hN n hn)
        have hul : us.length = kxs.length := by simpa using pick_mem hp
        have e : exec n s (.dict kxs) = (({ s with heap := s.heap ++ (ext ++ [.dict ((kxs.map Prod.fst).zip is')]) } : Store).push
            ⟨.dict, some (s.heap ++ ext).length⟩, .ok ()) := by
          rw [exec, k1]
          dsimp only
          rw [k2]
          simp only [List.append_assoc]
        rw [e]
        refine ⟨inv.push (.dict (m := (kxs.map Prod.fst).zip is') (Fs := Fs') ?_ ?_ ?_ ?_ ?_) ?_, rfl⟩
        · rw [← List.append_assoc]; simp
        · rw [List.map_fst_zip (by simp; omega), List.map_fst_zip (by simp; omega)]
        · intro i k k' it t e1 e2
          rw [List.getElem?_zip_eq_some] at e1 e2
          have := k4 i it t e1.2 e2.2
          refine this.frame fun x hx => ?_
          rw [← List.append_assoc, List.getElem?_append_left (this.lt x hx)]
        · intro i j x hi hj
          exact k6 i j x (by simp at hi; omega) (by simp at hj; omega)
        · intro i hi hx
          have := (k5 i _ (by simp at hi; omega) hx).2
          omega
        · rintro x (rfl | ⟨i, hi, hx⟩)
          · simp [Fresh]
          · exact (k5 i x (by simp at hi; omega) hx).1
    · rw [if_pos (by simpa using hsort)] at hu
      exact absurd rfl hu
  | copy x p =>
    simp only [treeExec] at hu ⊢
    cases hx : ts[x]? with
    | none => rw [hx] at hu; exact absurd rfl hu
    | some t =>
      dsimp only
      cases hl : lookup t p with
      | none =>
        refine ⟨0, fun n _ s inv => ?_⟩
        obtain ⟨it, F, g1, g2, -⟩ := inv.var hx
        obtain ⟨e, he⟩ := evalAt_none g1 g2.shows hl
        rw [exec, he]
        exact ⟨inv, rfl⟩
      | some u =>
        obtain ⟨N, hN⟩ := copyItem_spec u
        refine ⟨N, fun n hn s inv => ?_⟩
        obtain ⟨it, F, g1, g2, -⟩ := inv.var hx
        obtain ⟨r, itr, Fr, k1, k2, k3, -⟩ := evalAt_some g1 g2 (outside_var x F) hl
        obtain ⟨ext, it', F', c1, c2, c3⟩ := hN n hn s.heap itr Fr k3 s.heap fun _ _ => rfl
        rw [exec, k1]
        dsimp only
        rw [construct, k2]
        dsimp only
        rw [c1]
        exact ⟨inv.push c2 c3, rfl⟩
  | touch x p =>
    simp only [treeExec] at hu ⊢
    cases hx : ts[x]? with
    | none => rw [hx] at hu; exact absurd rfl hu
    | some t =>
      dsimp only
      refine ⟨0, fun n _ s inv => ?_⟩
      obtain ⟨it, F, g1, g2, g3⟩ := inv.var hx
      obtain ⟨s1, o1, it1, F1, k1, k2, k3, k4, k5, k6, k7⟩ := evalSub_spec (p := p) g1 g2 (outside_var x F)
      rw [exec, k1]
      rcases k7 with ⟨w, r', rfl, -⟩ | ⟨w, e, rfl⟩
      · rw [w]; exact ⟨g3 s1 it1 _ F1 k2 k3 k4, rfl⟩
      · rw [w]; exact ⟨g3 s1 it1 _ F1 k2 k3 k4, rfl⟩
  | assign x p y q =>
    simp only [treeExec] at hu ⊢
    cases hx : ts[x]? with
    | none => rw [hx] at hu; exact absurd rfl hu
    | some tx =>
      cases hy : ts[y]? with
      | none => rw [hx, hy] at hu; exact absurd rfl hu
      | some ty =>
        rw [hx, hy] at hu
        dsimp only at hu ⊢
        cases hl : lookup ty q with
        | none =>
          rw [if_pos rfl]
          refine ⟨0, fun n _ s inv => ?_⟩
          obtain ⟨it, F, g1, g2, -⟩ := inv.var hy
          obtain ⟨e, he⟩ := evalAt_none g1 g2.shows hl
          rw [exec, he]
          exact ⟨inv, rfl⟩
        | some c0 =>
          rw [hl, if_neg (by simp)] at hu
          rw [if_neg (by simp)]
          cases hw : (walk tx p).2 with
          | false =>
            rw [if_neg (by simp)]
            refine ⟨0, fun n _ s inv => ?_⟩
            obtain ⟨ity, Fy, y1, y2, -⟩ := inv.var hy
            obtain ⟨src, -, -, j1, -⟩ := evalAt_some y1 y2 (outside_var y Fy) hl
            obtain ⟨it, F, g1, g2, g3⟩ := inv.var hx
            obtain ⟨s1, o1, it1, F1, k1, k2, k3, k4, k5, k6, k7⟩ := evalSub_spec (p := p) g1 g2 (outside_var x F)
            rw [exec, j1]
            dsimp only
            rw [k1]
            rcases k7 with ⟨w, -⟩ | ⟨w, e, rfl⟩
            · rw [hw] at w; cases w
            · exact ⟨g3 s1 it1 _ F1 k2 k3 k4, rfl⟩
          | true =>
            rw [hw, if_pos rfl] at hu
            rw [if_pos rfl]
            cases hb : ((ts.set x (walk tx p).1)[y]?).bind fun t => lookup t q with
            | none => rw [hb] at hu; exact absurd rfl hu
            | some u =>
              dsimp only
              obtain ⟨ty', hty', hlu⟩ := Option.bind_eq_some_iff.mp hb
              obtain ⟨N, hN⟩ := copyItem_spec u
              refine ⟨N, fun n hn s inv => ?_⟩
              obtain ⟨ity, Fy, y1, y2, -⟩ := inv.var hy
              obtain ⟨src, isrc, -, j1, -⟩ := evalAt_some y1 y2 (outside_var y Fy) hl
              obtain ⟨it, F, g1, g2, g3⟩ := inv.var hx
              obtain ⟨s1, o1, it1, F1, k1, k2, k3, k4, k5, k6, k7⟩ := evalSub_spec (p := p) g1 g2 (outside_var x F)
              have inv1 := g3 s1 it1 _ F1 k2 k3 k4
              rcases k7 with ⟨w, dst, rfl, w'⟩ | ⟨w, -⟩
              · have j1' := k5.evalAt y1 y2 (outside_var y Fy) j1
                obtain ⟨ity', Fy', v1, v2, -⟩ := inv1.var hty'
                obtain ⟨src', isrc', Fsrc, b1, b2, b3, -⟩ := evalAt_some v1 v2 (outside_var y Fy') hlu
                rw [j1'] at b1
                cases b1
                have hxs : (ts.set x (walk tx p).1)[x]? = some (walk tx p).1 :=
                  List.getElem?_set_self (List.getElem?_eq_some_iff.mp hx).1
                obtain ⟨itx, Fx, z1, z2, z3⟩ := inv1.var hxs
                obtain ⟨c1, hc1⟩ := lookup_walk_self hw
                obtain ⟨dst', idst, Fd, d1, d2, d3, d4, d5, d6, d7⟩ := evalAt_some z1 z2 (outside_var x Fx) hc1
                rw [w'] at d1
                cases d1
                obtain ⟨s2, it2, F2, a1, a2, a3, a4⟩ := assign_spec (Fd := Fd) d2 b2 b3 (hN n hn)
                obtain ⟨it3, F3, n1, n2, n3⟩ := d7 s2 (Fresh s1) (outside_var x _) (fresh_disjoint z2) it2 u F2 a2 a3
                  (fun x hx => .inr (a4 x hx))
                rw [exec, j1]
                dsimp only
                rw [k1]
                dsimp only
                rw [a1]
                have := z3 s2 it3 _ F3 n1 n2 n3
                rw [List.set_set] at this
                exact ⟨this, rfl⟩
              · rw [hw] at w; cases w
  | append x p y q =>
    simp only [treeExec] at hu ⊢
    cases hx : ts[x]? with
    | none => rw [hx] at hu; exact absurd rfl hu
    | some tx =>
      cases hy : ts[y]? with
      | none => rw [hx, hy] at hu; exact absurd rfl hu
      | some ty =>
        dsimp only
        cases hw : (walk tx p).2 with
        | false =>
          rw [if_neg (by simp)]
          refine ⟨0, fun n _ s inv => ?_⟩
          obtain ⟨it, F, g1, g2, g3⟩ := inv.var hx
          obtain ⟨s1, o1, it1, F1, k1, k2, k3, k4, k5, k6, k7⟩ := evalSub_spec (p := p) g1 g2 (outside_var x F)
          rw [exec, k1]
          rcases k7 with ⟨w, -⟩ | ⟨w, e, rfl⟩
          · rw [hw] at w; cases w
          · exact ⟨g3 s1 it1 _ F1 k2 k3 k4, rfl⟩
        | true =>
          rw [if_pos rfl]
          have hxl := (List.getElem?_eq_some_iff.mp hx).1
          have hyl := (List.getElem?_eq_some_iff.mp hy).1
          have hty : ∃ ty', (ts.set x (walk tx p).1)[y]? = some ty' :=
            ⟨_, List.getElem?_eq_getElem (by rw [List.length_set]; exact hyl)⟩
          obtain ⟨ty', hty'⟩ := hty
          rw [hty']
          simp only [Option.bind_some]
          cases hlu : lookup ty' q with
          | none =>
            refine ⟨0, fun n _ s inv => ?_⟩
            obtain ⟨it, F, g1, g2, g3⟩ := inv.var hx
            obtain ⟨s1, o1, it1, F1, k1, k2, k3, k4, k5, k6, k7⟩ := evalSub_spec (p := p) g1 g2 (outside_var x F)
            have inv1 := g3 s1 it1 _ F1 k2 k3 k4
            rcases k7 with ⟨w, dst, rfl, w'⟩ | ⟨w, -⟩
            · obtain ⟨ity, Fy, v1, v2, -⟩ := inv1.var hty'
              obtain ⟨e, he⟩ := evalAt_none v1 v2.shows hlu
              rw [exec, k1]
              dsimp only
              rw [he]
              exact ⟨inv1, rfl⟩
            · rw [hw] at w; cases w
          | some u =>
            dsimp only
            obtain ⟨c1, hc1⟩ := lookup_walk_self hw
            rw [hc1]
            simp only [Option.bind_some]
            obtain ⟨N, hN⟩ := copyItem_spec u
            refine ⟨N, fun n hn s inv => ?_⟩
            obtain ⟨it, F, g1, g2, g3⟩ := inv.var hx
            obtain ⟨s1, o1, it1, F1, k1, k2, k3, k4, k5, k6, k7⟩ := evalSub_spec (p := p) g1 g2 (outside_var x F)
            have inv1 := g3 s1 it1 _ F1 k2 k3 k4
            rcases k7 with ⟨w, dst, rfl, w'⟩ | ⟨w, -⟩
            · obtain ⟨ity', Fy', v1, v2, -⟩ := inv1.var hty'
              obtain ⟨src, isrc, Fsrc, b1, b2, b3, -⟩ := evalAt_some v1 v2 (outside_var y Fy') hlu
              have hxs : (ts.set x (walk tx p).1)[x]? = some (walk tx p).1 := List.getElem?_set_self hxl
              obtain ⟨itx, Fx, z1, z2, z3⟩ := inv1.var hxs
              obtain ⟨dst', idst, Fd, d1, d2, d3, d4, d5, d6, d7⟩ := evalAt_some z1 z2 (outside_var x Fx) hc1
              rw [w'] at d1
              cases d1
              obtain ⟨ext, ji, Fj, e1, e2, e3⟩ := hN n hn s1.heap isrc Fsrc b3 s1.heap fun _ _ => rfl
              let s2 : Store := { s1 with heap := s1.heap ++ ext }
              have g2' : s2.get dst = .ok idst := get_grow d2
              have o2 : Owns s2.heap idst c1 Fd := d3.frame fun a ha => List.getElem?_append_left (d3.lt a ha)
              have hrun : exec n s (.append x p y q) = append n s2 dst ji := by
                rw [exec, k1]
                dsimp only
                rw [b1]
                dsimp only
                rw [b2]
                dsimp only
                rw [e1]
              rw [hrun]
              rcases append_spec (n := n) g2' o2 d4 (ji := ji) (u := u) (Fj := Fj) e2 (fun a ha h => by
                  have := get_lt d2 ha
                  have := e3 a h
                  omega) (hN n hn) with ⟨f1, e, f2⟩ | ⟨c, s3, it3, F3, f1, f2, f3, f4, f5⟩
              · rw [f1, f2]
                exact ⟨inv1.grow ext, rfl⟩
              · rw [f1, f2]
                have l13 : Local s1 s3 dst Fd (Fresh s1) it3 :=
                  Local.trans d2 (Local.grow d2 ext) f3 (fun x hx => .inl hx) (fun x hx => Fresh.grow hx)
                obtain ⟨it4, F4, n1, n2, n3⟩ := d7 s3 (Fresh s1) (outside_var x _) (fresh_disjoint z2) it3 c F3 l13 f4
                  (fun x hx => (f5 x hx).imp id Fresh.grow)
                have := z3 s3 it4 _ F4 n1 n2 n3
                rw [List.set_set] at this
                exact ⟨this, rfl⟩
            · rw [hw] at w; cases w

/-- Every program does on items what it does on trees. -/
theorem execAll_spec : ∀ (cs : List Cmd) (ts : List Json), .undefined ∉ (treeExecAll ts cs).2 →
    ∃ N, ∀ n, N ≤ n → ∀ s, Inv s ts →
      Inv (execAll n s cs).1 (treeExecAll ts cs).1 ∧ (execAll n s cs).2.map replyOf = (treeExecAll ts cs).2 := by
  intro cs
  induction cs with
  | nil => intro ts _; exact ⟨0, fun n _ s inv => ⟨inv, rfl⟩⟩
  | cons c cs ih =>
    intro ts hu
    simp only [treeExecAll, List.mem_cons, not_or] at hu
    obtain ⟨N1, h1⟩ := exec_spec ts c (Ne.symm hu.1)
    obtain ⟨N2, h2⟩ := ih _ hu.2
    refine ⟨max N1 N2, fun n hn s inv => ?_⟩
    obtain ⟨i1, r1⟩ := h1 n (by omega) s inv
    obtain ⟨i2, r2⟩ := h2 n (by omega) _ i1
    simp only [execAll, treeExecAll, List.map_cons]
    exact ⟨i2, by rw [r1, r2]⟩

end Verif.Js

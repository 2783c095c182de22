import Verif.Proofs.JsonRun

namespace Verif.Js

open Verif.Text Verif.Spec

/-! ### Laws of the tree operations -/

theorem lookup_replace : ∀ {p : List Step} {t u c : Json}, lookup t p = some c → lookup (replaced t p u) p = some u := by
  intro p
  induction p with
  | nil => intro t u c _; simp [replaced, lookup]
  | cons st p ih =>
    intro t u c h
    simp only [lookup, Option.bind_eq_some_iff] at h
    obtain ⟨d, hd, h⟩ := h
    cases t with
    | none => simp [child] at hd
    | leaf v ty => simp [child] at hd
    | list ts =>
      cases st with
      | key k => simp [child] at hd
      | idx i =>
        simp only [child] at hd
        simp only [replaced, hd, lookup, child]
        rw [List.getElem?_set_self (List.getElem?_eq_some_iff.mp hd).1]
        exact ih h
    | dict m =>
      cases st with
      | idx i => simp [child] at hd
      | key k =>
        simp only [child] at hd
        simp only [replaced, hd, lookup, child, mapFind_mapSet hd]
        exact ih h

theorem lookup_replace_apart : ∀ {p q : List Step} {t u : Json}, Apart p q →
    lookup (replaced t p u) q = lookup t q := by
  intro p
  induction p with
  | nil => intro q t u h; exact absurd (List.nil_prefix) h.1
  | cons st p ih =>
    intro q t u h
    cases q with
    | nil => exact absurd (List.nil_prefix) h.2
    | cons st' q =>
      have tail : st = st' → Apart p q := by
        rintro rfl
        exact ⟨fun hp => h.1 ((List.prefix_cons_inj st).mpr hp), fun hp => h.2 ((List.prefix_cons_inj st).mpr hp)⟩
      cases t with
      | none => simp [replaced]
      | leaf v ty => simp [replaced]
      | list ts =>
        cases st with
        | key k => simp [replaced]
        | idx i =>
          cases hi : ts[i]? with
          | none => simp [replaced, hi]
          | some c =>
            simp only [replaced, hi]
            cases st' with
            | key k => simp [lookup, child]
            | idx j =>
              by_cases e : i = j
              · subst e
                simp only [lookup, child, hi]
                rw [List.getElem?_set_self (List.getElem?_eq_some_iff.mp hi).1]
                exact ih (tail rfl)
              · simp only [lookup, child]
                rw [List.getElem?_set_ne e]
      | dict m =>
        cases st with
        | idx i => simp [replaced]
        | key k =>
          cases hi : mapFind m k with
          | none => simp [replaced, hi]
          | some c =>
            simp only [replaced, hi]
            cases st' with
            | idx j => simp [lookup, child]
            | key k' =>
              by_cases e : k' = k
              · subst e
                simp only [lookup, child, hi, mapFind_mapSet hi]
                exact ih (tail rfl)
              · simp only [lookup, child, mapFind_mapSet_ne e]

/-- Walking leaves everything that does not lie on the path as it was. -/
theorem lookup_walk_off : ∀ {p q : List Step} {t c : Json}, ¬ q <+: p → lookup t q = some c →
    lookup (walk t p).1 q = some c := by
  intro p
  induction p with
  | nil => intro q t c _ h; simpa [walk] using h
  | cons st p ih =>
    intro q t c hq h
    cases q with
    | nil => exact absurd (List.nil_prefix) hq
    | cons st' q =>
      have tail : st' = st → ¬ q <+: p := by
        rintro rfl hp
        exact hq ((List.prefix_cons_inj st').mpr hp)
      simp only [lookup, Option.bind_eq_some_iff] at h
      obtain ⟨d, hd, h⟩ := h
      cases t with
      | none => simp [child] at hd
      | leaf v ty => simp [child] at hd
      | list ts =>
        cases st' with
        | key k => simp [child] at hd
        | idx j =>
          simp only [child] at hd
          cases st with
          | key k => simp [walk, lookup, child, hd, h]
          | idx i =>
            cases hi : ts[i]? with
            | none => simp [walk, lookup, child, hd, h, hi]
            | some e =>
              simp only [walk, hi, lookup, child]
              by_cases eq : i = j
              · subst eq
                rw [hi] at hd
                cases hd
                rw [List.getElem?_set_self (List.getElem?_eq_some_iff.mp hi).1]
                exact ih (tail rfl) h
              · rw [List.getElem?_set_ne eq, hd]
                exact h
      | dict m =>
        cases st' with
        | idx j => simp [child] at hd
        | key k' =>
          simp only [child] at hd
          cases st with
          | idx i => simp [walk, lookup, child, hd, h]
          | key k =>
            cases hk : mapFind m k with
            | none =>
              have : k' ≠ k := by rintro rfl; rw [hk] at hd; cases hd
              simp [walk, lookup, child, hk, mapFind_mapPut_ne this, hd, h]
            | some e =>
              by_cases eq : k' = k
              · subst eq
                rw [hk] at hd
                cases hd
                simp [walk, lookup, child, hk, mapFind_mapSet hk, ih (tail rfl) h]
              · simp [walk, lookup, child, hk, mapFind_mapSet_ne eq, hd, h]

/-- Walking an existing path changes nothing. -/
theorem walk_exists : ∀ {p : List Step} {t c : Json}, lookup t p = some c → walk t p = (t, true) := by
  intro p
  induction p with
  | nil => intro t c _; simp [walk]
  | cons st p ih =>
    intro t c h
    simp only [lookup, Option.bind_eq_some_iff] at h
    obtain ⟨d, hd, h⟩ := h
    cases t with
    | none => simp [child] at hd
    | leaf v ty => simp [child] at hd
    | list ts =>
      cases st with
      | key k => simp [child] at hd
      | idx i =>
        simp only [child] at hd
        simp only [walk, hd, ih h]
        rw [set_same hd]
    | dict m =>
      cases st with
      | idx i => simp [child] at hd
      | key k =>
        simp only [child] at hd
        simp only [walk, hd, ih h]
        rw [mapSet_self hd]

/-! ### Order of the keys -/

theorem keyLt_trans : ∀ {a b c : Key}, keyLt a b = true → keyLt b c = true → keyLt a c = true
  | a, [], c, h, _ => by cases a <;> simp [keyLt] at h
  | a, b :: bs, [], _, h => by simp [keyLt] at h
  | [], b :: bs, c :: cs, _, _ => rfl
  | a :: as, b :: bs, c :: cs, h1, h2 => by
    unfold keyLt at h1 h2 ⊢
    by_cases x1 : a.toNat < b.toNat
    · by_cases x2 : b.toNat < c.toNat
      · rw [if_pos (by omega)]
      · rw [if_neg x2] at h2
        by_cases x3 : c.toNat < b.toNat
        · rw [if_pos x3] at h2; cases h2
        · rw [if_pos (by omega)]
    · rw [if_neg x1] at h1
      by_cases x1' : b.toNat < a.toNat
      · rw [if_pos x1'] at h1; cases h1
      · rw [if_neg x1'] at h1
        by_cases x2 : b.toNat < c.toNat
        · rw [if_pos (by omega)]
        · rw [if_neg x2] at h2
          by_cases x3 : c.toNat < b.toNat
          · rw [if_pos x3] at h2; cases h2
          · rw [if_neg x3] at h2
            rw [if_neg (by omega), if_neg (by omega)]
            exact keyLt_trans h1 h2

theorem keyLt_total : ∀ {a b : Key}, a ≠ b → keyLt a b = false → keyLt b a = true
  | [], [], h, _ => absurd rfl h
  | [], b :: bs, _, h => by simp [keyLt] at h
  | a :: as, [], _, _ => rfl
  | a :: as, b :: bs, hne, h => by
    unfold keyLt at h ⊢
    by_cases x1 : a.toNat < b.toNat
    · rw [if_pos x1] at h; cases h
    · rw [if_neg x1] at h
      by_cases x2 : b.toNat < a.toNat
      · rw [if_pos x2]
      · rw [if_neg x2] at h
        rw [if_neg x2, if_neg x1]
        refine keyLt_total (fun e => hne ?_) h
        have : a = b := Char.toNat_inj.mp (by omega)
        rw [this, e]

theorem mapPut_keys {α : Type} {m : List (Key × α)} {k : Key} {v : α} {p : Key × α} (h : p ∈ mapPut m k v) :
    p = (k, v) ∨ p ∈ m := by
  induction m with
  | nil => simp [mapPut] at h; exact .inl h
  | cons q m ih =>
    obtain ⟨k', v'⟩ := q
    unfold mapPut at h
    split at h
    · rcases List.mem_cons.mp h with h | h
      · exact .inl h
      · exact .inr (List.mem_cons_of_mem _ h)
    · split at h
      · rcases List.mem_cons.mp h with h | h
        · exact .inl h
        · exact .inr h
      · rcases List.mem_cons.mp h with h | h
        · exact .inr (h ▸ List.mem_cons_self)
        · rcases ih h with h | h
          · exact .inl h
          · exact .inr (List.mem_cons_of_mem _ h)

theorem mapPut_sorted {α : Type} {m : List (Key × α)} {k : Key} {v : α} (h : KeysSorted m) :
    KeysSorted (mapPut m k v) := by
  induction m with
  | nil => simp [mapPut, KeysSorted]
  | cons q m ih =>
    obtain ⟨k', v'⟩ := q
    simp only [KeysSorted, List.pairwise_cons] at h
    unfold mapPut
    split
    · rename_i e
      subst e
      simp only [KeysSorted, List.pairwise_cons]
      exact h
    · rename_i e
      split
      · rename_i c
        simp only [KeysSorted, List.pairwise_cons]
        refine ⟨?_, h⟩
        intro p hp
        rcases List.mem_cons.mp hp with rfl | hp
        · exact c
        · exact keyLt_trans c (h.1 p hp)
      · rename_i c
        simp only [KeysSorted, List.pairwise_cons]
        refine ⟨?_, ih h.2⟩
        intro p hp
        rcases mapPut_keys hp with rfl | hp
        · exact keyLt_total (Ne.symm e) (by simpa using c)
        · exact h.1 p hp

theorem mapSet_mem {α : Type} {m : List (Key × α)} {k : Key} {v : α} {p : Key × α} (h : p ∈ mapSet m k v) :
    p = (k, v) ∨ p ∈ m := by
  induction m with
  | nil => simp [mapSet] at h
  | cons q m ih =>
    obtain ⟨k', v'⟩ := q
    unfold mapSet at h
    split at h
    · rename_i e
      subst e
      rcases List.mem_cons.mp h with h | h
      · exact .inl h
      · exact .inr (List.mem_cons_of_mem _ h)
    · rcases List.mem_cons.mp h with h | h
      · exact .inr (h ▸ List.mem_cons_self)
      · rcases ih h with h | h
        · exact .inl h
        · exact .inr (List.mem_cons_of_mem _ h)

theorem mapSet_fst {α : Type} {m : List (Key × α)} {k : Key} {v : α} :
    (mapSet m k v).map Prod.fst = m.map Prod.fst := by
  induction m with
  | nil => rfl
  | cons q m ih =>
    obtain ⟨k', v'⟩ := q
    unfold mapSet
    split
    · rfl
    · simp [ih]

theorem sorted_fst {α β : Type} {m : List (Key × α)} {m' : List (Key × β)} (h : m.map Prod.fst = m'.map Prod.fst)
    (hs : KeysSorted m) : KeysSorted m' := by
  have : (m.map Prod.fst).Pairwise fun a b => keyLt a b = true := by
    rw [List.pairwise_map]; exact hs
  rw [h, List.pairwise_map] at this
  exact this

theorem _root_.Verif.Spec.Ordered.lookup : ∀ {p : List Step} {t c : Json}, Ordered t → Spec.lookup t p = some c → Ordered c := by
  intro p
  induction p with
  | nil => intro t c h e; cases e; exact h
  | cons st p ih =>
    intro t c h e
    simp only [Spec.lookup, Option.bind_eq_some_iff] at e
    obtain ⟨d, hd, e⟩ := e
    cases h with
    | none => simp [child] at hd
    | leaf => simp [child] at hd
    | list hs =>
      cases st with
      | key k => simp [child] at hd
      | idx i => exact ih (hs d (List.mem_of_getElem? hd)) e
    | dict hm hs =>
      cases st with
      | idx i => simp [child] at hd
      | key k => exact ih (hs _ (mapFind_mem hd)) e

theorem _root_.Verif.Spec.Ordered.replaced : ∀ {p : List Step} {t u : Json}, Ordered t → Ordered u → Ordered (Spec.replaced t p u) := by
  intro p
  induction p with
  | nil => intro t u _ h; simpa [Spec.replaced] using h
  | cons st p ih =>
    intro t u h hu
    cases h with
    | none => simpa [Spec.replaced] using Ordered.none
    | leaf => simpa [Spec.replaced] using Ordered.leaf
    | @list ts hs =>
      cases st with
      | key k => simpa [Spec.replaced] using Ordered.list hs
      | idx i =>
        cases hi : ts[i]? with
        | none => simpa [Spec.replaced, hi] using Ordered.list hs
        | some c =>
          simp only [Spec.replaced, hi]
          refine .list fun t ht => ?_
          rcases List.mem_or_eq_of_mem_set ht with h | rfl
          · exact hs t h
          · exact ih (hs c (List.mem_of_getElem? hi)) hu
    | @dict m hm hs =>
      cases st with
      | idx i => simpa [Spec.replaced] using Ordered.dict hm hs
      | key k =>
        cases hi : mapFind m k with
        | none => simpa [Spec.replaced, hi] using Ordered.dict hm hs
        | some c =>
          simp only [Spec.replaced, hi]
          refine .dict (sorted_fst mapSet_fst.symm hm) fun q hq => ?_
          rcases mapSet_mem hq with rfl | hq
          · exact ih (hs _ (mapFind_mem hi)) hu
          · exact hs q hq

theorem _root_.Verif.Spec.Ordered.walk : ∀ {p : List Step} {t : Json}, Ordered t → Ordered (Spec.walk t p).1 := by
  intro p
  induction p with
  | nil => intro t h; simpa [Spec.walk] using h
  | cons st p ih =>
    intro t h
    cases h with
    | none =>
      cases st with
      | idx i => exact .none
      | key k =>
        refine .dict (by simp [KeysSorted]) ?_
        intro q hq
        simp at hq
        subst hq
        exact ih .none
    | leaf => cases st <;> exact .leaf
    | @list ts hs =>
      cases st with
      | key k => exact .list hs
      | idx i =>
        cases hi : ts[i]? with
        | none => simpa [Spec.walk, hi] using Ordered.list hs
        | some c =>
          simp only [Spec.walk, hi]
          refine .list fun t ht => ?_
          rcases List.mem_or_eq_of_mem_set ht with h | rfl
          · exact hs t h
          · exact ih (hs c (List.mem_of_getElem? hi))
    | @dict m hm hs =>
      cases st with
      | idx i => exact .dict hm hs
      | key k =>
        cases hi : mapFind m k with
        | none =>
          simp only [Spec.walk, hi]
          refine .dict (mapPut_sorted hm) fun q hq => ?_
          rcases mapPut_keys hq with rfl | hq
          · exact ih .none
          · exact hs q hq
        | some c =>
          simp only [Spec.walk, hi]
          refine .dict (sorted_fst mapSet_fst.symm hm) fun q hq => ?_
          rcases mapSet_mem hq with rfl | hq
          · exact ih (hs _ (mapFind_mem hi))
          · exact hs q hq

theorem _root_.Verif.Spec.Ordered.appended {t u c : Json} (ht : Ordered t) (hu : Ordered u) (h : Spec.appended t u = some c) : Ordered c := by
  cases ht with
  | none => cases h; exact .list (by simpa using hu)
  | leaf => cases h
  | dict hm hs => cases h
  | list hs =>
    cases h
    refine .list fun t ht => ?_
    rcases List.mem_append.mp ht with h | h
    · exact hs t h
    · simp at h; subst h; exact hu

theorem pick_all {P : Json → Prop} {ts : List Json} (h : ∀ t ∈ ts, P t) : ∀ {xs : List Nat} {us : List Json},
    chosen ts xs = some us → ∀ u ∈ us, P u := by
  intro xs
  induction xs with
  | nil => intro us e; cases e; simp
  | cons x xs ih =>
    intro us e
    simp only [chosen, Option.bind_eq_some_iff, Option.map_eq_some_iff] at e
    obtain ⟨t, ht, us', hus, rfl⟩ := e
    intro u hu
    rcases List.mem_cons.mp hu with rfl | hu
    · exact h _ (List.mem_of_getElem? ht)
    · exact ih hus u hu

theorem all_set {P : Json → Prop} {ts : List Json} (h : ∀ t ∈ ts, P t) {x : Nat} {u : Json} (hu : P u) :
    ∀ t ∈ ts.set x u, P t := by
  intro t ht
  rcases List.mem_or_eq_of_mem_set ht with h' | rfl
  · exact h t h'
  · exact hu

theorem all_snoc {P : Json → Prop} {ts : List Json} (h : ∀ t ∈ ts, P t) {u : Json} (hu : P u) :
    ∀ t ∈ ts ++ [u], P t := by
  intro t ht
  rcases List.mem_append.mp ht with h' | h'
  · exact h t h'
  · simp at h'; subst h'; exact hu

theorem treeExec_ordered {ts : List Json} (h : ∀ t ∈ ts, Ordered t) (c : Cmd) : ∀ t ∈ (treeExec ts c).1, Ordered t := by
  cases c with
  | empty => exact all_snoc h .none
  | leaf v t => exact all_snoc h .leaf
  | list xs =>
    simp only [treeExec]
    split
    · rename_i us e; exact all_snoc h (.list (pick_all h e))
    · exact h
  | dict kxs =>
    simp only [treeExec]
    split
    · exact h
    · rename_i hs
      have hs : KeysSorted kxs := Classical.not_not.mp hs
      split
      · rename_i us e
        have hl : us.length = kxs.length := by simpa using pick_mem e
        refine all_snoc h (.dict (sorted_fst ?_ hs) ?_)
        · rw [List.map_fst_zip (by simp; omega)]
        · intro p hp
          exact pick_all h e p.2 (List.of_mem_zip (a := p.1) (b := p.2) hp).2
      · exact h
  | copy x p =>
    simp only [treeExec]
    split
    · rename_i t e
      split
      · rename_i u hl; exact all_snoc h ((h t (List.mem_of_getElem? e)).lookup hl)
      · exact h
    · exact h
  | touch x p =>
    simp only [treeExec]
    split
    · rename_i t e; exact all_set h (h t (List.mem_of_getElem? e)).walk
    · exact h
  | assign x p y q =>
    simp only [treeExec]
    split
    · rename_i tx ty ex ey
      have hw := (h tx (List.mem_of_getElem? ex)).walk (p := p)
      split
      · exact h
      · split
        · split
          · rename_i u hu
            obtain ⟨t', ht', hl⟩ := Option.bind_eq_some_iff.mp hu
            exact all_set h (hw.replaced ((all_set h hw t' (List.mem_of_getElem? ht')).lookup hl))
          · exact all_set h hw
        · exact all_set h hw
    · exact h
  | append x p y q =>
    simp only [treeExec]
    split
    · rename_i tx ty ex ey
      have hw := (h tx (List.mem_of_getElem? ex)).walk (p := p)
      split
      · split
        · exact all_set h hw
        · rename_i u hu
          obtain ⟨t', ht', hl⟩ := Option.bind_eq_some_iff.mp hu
          split
          · rename_i c hc
            obtain ⟨d, hd, hc⟩ := Option.bind_eq_some_iff.mp hc
            refine all_set h (hw.replaced ?_)
            exact (hw.lookup hd).appended ((all_set h hw t' (List.mem_of_getElem? ht')).lookup hl) hc
          · exact all_set h hw
      · exact all_set h hw
    · exact h

theorem treeExecAll_ordered : ∀ (cs : List Cmd) {ts : List Json}, (∀ t ∈ ts, Ordered t) →
    ∀ t ∈ (treeExecAll ts cs).1, Ordered t := by
  intro cs
  induction cs with
  | nil => intro ts h; exact h
  | cons c cs ih => intro ts h; exact ih (treeExec_ordered h c)

/-! ### Other variables, sound programs -/

theorem treeExec_other {ts : List Json} {c : Cmd} {x : Nat} {t : Json} (hx : ts[x]? = some t) (hc : target c ≠ some x) :
    (treeExec ts c).1[x]? = some t := by
  have hl := (List.getElem?_eq_some_iff.mp hx).1
  have snoc : ∀ u, (ts ++ [u])[x]? = some t := fun u => by rw [List.getElem?_append_left hl, hx]
  have st : ∀ y u, target c = some y → (ts.set y u)[x]? = some t := fun y u e => by
    rw [List.getElem?_set_ne, hx]
    rintro rfl
    exact hc e
  cases c <;> simp only [treeExec] <;> repeat' split
  all_goals first | exact snoc _ | exact hx | exact st _ _ rfl

theorem treeExecAll_other : ∀ {cs : List Cmd} {ts : List Json} {x : Nat} {t : Json}, ts[x]? = some t →
    (∀ c ∈ cs, target c ≠ some x) → (treeExecAll ts cs).1[x]? = some t := by
  intro cs
  induction cs with
  | nil => intro ts x t h _; exact h
  | cons c cs ih =>
    intro ts x t h hc
    exact ih (treeExec_other h (hc c List.mem_cons_self)) fun d hd => hc d (List.mem_cons_of_mem _ hd)

theorem pick_some {ts : List Json} : ∀ {xs : List Nat}, (∀ x ∈ xs, x < ts.length) → ∃ us, chosen ts xs = some us := by
  intro xs
  induction xs with
  | nil => intro _; exact ⟨[], rfl⟩
  | cons x xs ih =>
    intro h
    obtain ⟨us, hus⟩ := ih fun y hy => h y (List.mem_cons_of_mem _ hy)
    exact ⟨ts[x]'(h x List.mem_cons_self) :: us, by simp [chosen, hus, h x List.mem_cons_self]⟩

theorem sound_reply {ts : List Json} {c : Cmd} (h : Sound ts.length c) : (treeExec ts c).2 ≠ .undefined := by
  cases c with
  | empty => simp [treeExec]
  | leaf v t => simp [treeExec]
  | list xs =>
    obtain ⟨us, hus⟩ := pick_some h
    simp [treeExec, hus]
  | dict kxs =>
    obtain ⟨us, hus⟩ := pick_some (ts := ts) (xs := kxs.map Prod.snd) (by
      intro x hx
      obtain ⟨p, hp, rfl⟩ := List.mem_map.mp hx
      exact h.2 p hp)
    simp [treeExec, hus, h.1]
  | copy x p =>
    have : ts[x]? = some (ts[x]'h) := List.getElem?_eq_getElem h
    simp only [treeExec, this]
    split <;> simp
  | touch x p =>
    have : ts[x]? = some (ts[x]'h) := List.getElem?_eq_getElem h
    simp only [treeExec, this]
    split <;> simp
  | assign x p y q =>
    have e1 : ts[x]? = some (ts[x]'h.1) := by simp
    have e2 : ts[y]? = some (ts[y]'h.2) := by simp
    simp only [treeExec, e1, e2]
    split
    · simp
    · rename_i hl
      obtain ⟨c0, hc0⟩ := Option.ne_none_iff_exists'.mp hl
      split
      · split
        · simp
        · rename_i hb
          exfalso
          by_cases e : x = y
          · subst e
            rw [List.getElem?_set_self h.1] at hb
            obtain ⟨c', hc'⟩ := lookup_walk (p := p) hc0
            simp only [Option.bind_some, hc'] at hb
            cases hb
          · rw [List.getElem?_set_ne e, e2] at hb
            simp only [Option.bind_some, hc0] at hb
            cases hb
      · simp
  | append x p y q =>
    have e1 : ts[x]? = some (ts[x]'h.1) := by simp
    have e2 : ts[y]? = some (ts[y]'h.2) := by simp
    simp only [treeExec, e1, e2]
    repeat' split
    all_goals simp

end Verif.Js

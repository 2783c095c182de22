import Verif.Proofs.JsonUpdate

namespace Verif.Js

open Verif.Text Verif.Spec

/-! ### References stay valid -/

/-- Every reference still denotes an item, the same one if it had a value. -/
def Ext (s s' : Store) : Prop :=
  ∀ r it, s.get r = .ok it → ∃ it', s'.get r = .ok it' ∧ (it.val ≠ .none → it' = it)

theorem Ext.refl (s : Store) : Ext s s := fun _ it h => ⟨it, h, fun _ => rfl⟩

theorem Ext.trans {s s1 s2 : Store} (e1 : Ext s s1) (e2 : Ext s1 s2) : Ext s s2 := by
  intro r it h
  obtain ⟨i1, h1, h1'⟩ := e1 r it h
  obtain ⟨i2, h2, h2'⟩ := e2 r i1 h1
  refine ⟨i2, h2, fun hv => ?_⟩
  have := h1' hv
  subst this
  exact h2' hv

theorem get_grow {s : Store} {ext : Heap} {r : Ref} {it : Item} (h : s.get r = .ok it) :
    ({ s with heap := s.heap ++ ext } : Store).get r = .ok it := by
  rw [← h]
  exact get_congr rfl fun b hb => List.getElem?_append_left (get_lt h hb)

theorem Ext.grow (s : Store) (ext : Heap) : Ext s { s with heap := s.heap ++ ext } :=
  fun _ it h => ⟨it, get_grow h, fun _ => rfl⟩

theorem Ext.set {s : Store} {r : Ref} {i0 : Item} (it : Item) (h : s.get r = .ok i0) (hv : i0.val = .none) :
    Ext s (s.set r it) := by
  intro r' it' h'
  by_cases e : r' = r
  · subst e
    refine ⟨it, get_set h, fun hv' => ?_⟩
    rw [h] at h'
    cases h'
    exact absurd hv hv'
  · exact ⟨it', by rw [get_set_ne h e, h'], fun _ => rfl⟩

theorem Ext.insert {s : Store} {a : Nat} {m : List (Key × Item)} {k : Key} (it : Item)
    (h : s.heap[a]? = some (.dict m)) (hk : mapFind m k = .none) :
    Ext s { s with heap := s.heap.set a (.dict (mapPut m k it)) } := by
  have hlt := (List.getElem?_eq_some_iff.mp h).1
  intro r it' h'
  refine ⟨it', ?_, fun _ => rfl⟩
  cases r with
  | var x => exact h'
  | elem b i =>
    obtain ⟨is, h1, h2⟩ := get_elem h'
    refine get_elem_of ?_ h2
    have : a ≠ b := by rintro rfl; rw [h] at h1; cases h1
    simpa [List.getElem?_set, this] using h1
  | field b k' =>
    obtain ⟨m', h1, h2⟩ := get_field h'
    by_cases e : a = b
    · subst e
      rw [h] at h1
      cases h1
      refine get_field_of (m := mapPut m k it) (by simp [List.getElem?_set, hlt]) ?_
      rw [mapFind_mapPut_ne, h2]
      rintro rfl
      rw [hk] at h2
      cases h2
    · refine get_field_of ?_ h2
      simpa [List.getElem?_set, e] using h1

theorem Ext.atIdx {s s' : Store} (e : Ext s s') {r r' : Ref} {i : Nat} {c : Item} (h : atIdx s r i = .ok r')
    (hc : s.get r' = .ok c) : atIdx s' r i = .ok r' := by
  cases hg : s.get r with
  | ub => unfold Js.atIdx at h; rw [hg] at h; cases h
  | throw m => unfold Js.atIdx at h; rw [hg] at h; cases h
  | ok it =>
    obtain ⟨it', h1, h2⟩ := e r it hg
    rw [atIdx_get i hg] at h
    rw [atIdx_get i h1]
    split at h
    · cases h
    · rename_i a hv
      have := h2 (by rw [hv]; simp)
      subst this
      rw [hv]
      dsimp only
      split at h
      · cases h
      · rename_i is hs
        split at h
        · cases h
        · cases h
          obtain ⟨c', hc', -⟩ := e _ c hc
          obtain ⟨is', g1, g2⟩ := get_elem hc'
          rw [g1]
          dsimp only
          rw [if_neg]
          have := (List.getElem?_eq_some_iff.mp g2).1
          omega
      · cases h

theorem Ext.atKey {s s' : Store} (e : Ext s s') {r r' : Ref} {k : Key} {c : Item} (h : atKey s r k = .ok r')
    (hc : s.get r' = .ok c) : atKey s' r k = .ok r' := by
  cases hg : s.get r with
  | ub => unfold Js.atKey at h; rw [hg] at h; cases h
  | throw m => unfold Js.atKey at h; rw [hg] at h; cases h
  | ok it =>
    obtain ⟨it', h1, h2⟩ := e r it hg
    rw [atKey_get k hg] at h
    rw [atKey_get k h1]
    split at h
    · cases h
    · rename_i a hv
      have := h2 (by rw [hv]; simp)
      subst this
      rw [hv]
      dsimp only
      split at h
      · cases h
      · rename_i m hs
        split at h
        · cases h
        · cases h
          obtain ⟨c', hc', -⟩ := e _ c hc
          obtain ⟨m', g1, g2⟩ := get_field hc'
          rw [g1]
          dsimp only
          rw [if_neg]
          rw [g2]
          simp
      · cases h

/-! ### `[]` with a key -/

/-- Addresses from the end of the memory on. -/
def Fresh (s : Store) : Nat → Prop := fun x => s.heap.length ≤ x

theorem outside_fresh {s : Store} {r : Ref} {it : Item} (h : s.get r = .ok it) : Outside r (Fresh s) := by
  intro a ha hf
  have := get_lt h ha
  unfold Fresh at hf
  omega

theorem fresh_disjoint {s : Store} {it : Item} {t : Json} {F : Nat → Prop} (o : Owns s.heap it t F) :
    ∀ x, F x → ¬ Fresh s x := by
  intro x hx hf
  have := o.lt x hx
  unfold Fresh at hf
  omega

theorem subKey_get {s : Store} {r : Ref} {it : Item} (k : Key) (h : s.get r = .ok it)
    (hv : ¬ (it.val = .none ∨ it.kind = .none)) {a : Nat} (ha : it.val = some a) :
    subKey s r k = (match s.heap[a]? with
        | .none => (s, .ub)
        | some (.dict m) =>
          match mapFind m k with
          | some _ => (s, .ok (.field a k))
          | .none => ({ s with heap := s.heap.set a (.dict (mapPut m k .empty)) }, .ok (.field a k))
        | some _ => (s, .throw "non-dict")) := by
  unfold subKey
  rw [h]
  dsimp only
  rw [if_neg hv]
  rw [h]
  dsimp only
  rw [ha]
  rfl

/-- Adding a key to a dictionary. -/
theorem Owns.insertDict {h h' : Heap} {a i : Nat} {k : Key} {m : List (Key × Item)} {ts : List (Key × Json)}
    {Fs : Nat → Nat → Prop} (h1 : h[a]? = some (.dict m)) (h2 : m.map Prod.fst = ts.map Prod.fst)
    (h3 : ∀ (i : Nat) (k k' : Key) (it : Item) (t : Json), m[i]? = some (k, it) → ts[i]? = some (k', t) →
        Owns h it t (Fs i))
    (h4 : ∀ i j x, i < m.length → j < m.length → Fs i x → Fs j x → i = j) (h5 : ∀ i, i < m.length → ¬ Fs i a)
    (hi : i ≤ m.length) (ha : h' = h.set a (.dict (m.insertIdx i (k, .empty)))) :
    ∃ F0, Owns h' ⟨.dict, some a⟩ (.dict (ts.insertIdx i (k, .none))) F0 ∧
      ∀ x, F0 x → x = a ∨ ∃ i, i < m.length ∧ Fs i x := by
  have hml : m.length = ts.length := by simpa using congrArg List.length h2
  have hlt := (List.getElem?_eq_some_iff.mp h1).1
  have ha' : h'[a]? = some (.dict (m.insertIdx i (k, .empty))) := by rw [ha]; simp [List.getElem?_set, hlt]
  refine ⟨_, .dict (Fs := fun j => if j < i then Fs j else if j = i then fun _ => False else Fs (j - 1)) ha' ?_ ?_ ?_ ?_, ?_⟩
  · rw [List.map_insertIdx, List.map_insertIdx, h2]
  · intro j k1 k2 jt v e1 e2
    have fr : ∀ j, j < m.length → ∀ x, Fs j x → h'[x]? = h[x]? := by
      intro j hj x hx
      have : a ≠ x := by rintro rfl; exact h5 j hj hx
      rw [ha]
      simp [List.getElem?_set, this]
    by_cases c : j < i
    · rw [List.getElem?_insertIdx_of_lt c] at e1 e2
      simp only [c, if_true]
      exact (h3 j k1 k2 jt v e1 e2).frame fun x hx => fr j (by omega) x hx
    · by_cases c' : j = i
      · subst c'
        rw [List.getElem?_insertIdx_self] at e1 e2
        rw [if_pos (by omega)] at e1 e2
        cases e1
        cases e2
        simp only [Nat.lt_irrefl, if_false, if_true]
        exact .none
      · rw [List.getElem?_insertIdx_of_gt (by omega)] at e1 e2
        simp only [c, c', if_false]
        exact (h3 (j - 1) k1 k2 jt v e1 e2).frame fun x hx => fr (j - 1) (List.getElem?_eq_some_iff.mp e1).1 x hx
  · intro j l x hj hl
    rw [List.length_insertIdx_of_le_length hi] at hj hl
    by_cases c : j < i <;> by_cases c' : j = i <;> by_cases d : l < i <;> by_cases d' : l = i <;>
      simp only [c, c', d, d', if_true, if_false, Nat.lt_irrefl] <;> intro hx hy <;>
      first | omega | exact hx.elim | exact hy.elim | skip
    · exact h4 j l x (by omega) (by omega) hx hy
    · have := h4 j (l - 1) x (by omega) (by omega) hx hy
      omega
    · have := h4 (j - 1) l x (by omega) (by omega) hx hy
      omega
    · have := h4 (j - 1) (l - 1) x (by omega) (by omega) hx hy
      omega
  · intro j hj
    rw [List.length_insertIdx_of_le_length hi] at hj
    by_cases c : j < i
    · simp only [c, if_true]; exact h5 j (by omega)
    · by_cases c' : j = i
      · simp only [c', if_true, Nat.lt_irrefl, if_false]; exact id
      · simp only [c, c', if_false]; exact h5 (j - 1) (by omega)
  · rintro x (rfl | ⟨j, hj, hx⟩)
    · exact .inl rfl
    · rw [List.length_insertIdx_of_le_length hi] at hj
      by_cases c : j < i
      · simp only [c, if_true] at hx; exact .inr ⟨j, by omega, hx⟩
      · by_cases c' : j = i
        · simp only [c', if_true, Nat.lt_irrefl, if_false] at hx
        · simp only [c, c', if_false] at hx; exact .inr ⟨j - 1, by omega, hx⟩

theorem mapSet_mapPut {α : Type} {m : List (Key × α)} {k : Key} {v v' : α} :
    mapSet (mapPut m k v) k v' = mapPut m k v' := by
  induction m with
  | nil => simp [mapPut, mapSet]
  | cons p m ih =>
    obtain ⟨k1, v1⟩ := p
    by_cases e : k1 = k
    · simp [mapPut, mapSet, e]
    · by_cases c : keyLt k k1 = true
      · simp [mapPut, mapSet, e, c]
      · simp [mapPut, mapSet, e, c, ih]

/-- `[]` with a key, on an item that shows a tree. -/
theorem subKey_spec {s : Store} {r : Ref} {it : Item} {t : Json} {F : Nat → Prop} (k : Key) (hg : s.get r = .ok it)
    (o : Owns s.heap it t F) (hout : Outside r F) :
    ((∃ e, subKey s r k = (s, .throw e)) ∧ ∀ p, walk t (.key k :: p) = (t, false)) ∨
    ∃ (s1 : Store) (it1 : Item) (t1 c : Json) (F1 : Nat → Prop) (a : Nat), subKey s r k = (s1, .ok (.field a k)) ∧
      Local s s1 r F (Fresh s) it1 ∧ Owns s1.heap it1 t1 F1 ∧ (∀ x, F1 x → F x ∨ Fresh s x) ∧ Ext s s1 ∧
      atKey s1 r k = .ok (.field a k) ∧ lookup t1 [.key k] = some c ∧ s.heap.length ≤ s1.heap.length ∧
      ∀ p, walk t (.key k :: p) = (replaced t1 [.key k] (walk c p).1, (walk c p).2) := by
  cases o with
  | @leaf a v ty h1 =>
    left
    refine ⟨⟨"non-dict", ?_⟩, fun p => rfl⟩
    rw [subKey_get (a := a) k hg (by simp) rfl, h1]
  | @list a is ts Fs h1 =>
    left
    refine ⟨⟨"non-dict", ?_⟩, fun p => rfl⟩
    rw [subKey_get (a := a) k hg (by simp) rfl, h1]
  | none =>
    right
    let a := s.heap.length
    let s0 := s.alloc (.dict [])
    let s1 := s0.set r ⟨.dict, some a⟩
    have g0 : s0.get r = .ok ⟨.none, .none⟩ := get_grow hg
    have g1 : s1.get r = .ok ⟨.dict, some a⟩ := get_set g0
    have hra : r.obj ≠ some a := fun e => by have := get_lt hg e; exact Nat.lt_irrefl _ this
    have c0 : s0.heap[a]? = some (.dict []) := by simp [s0, a, Store.alloc]
    have c1 : s1.heap[a]? = some (.dict []) := by rw [set_heap_other hra, c0]
    have l1 : s1.heap.length = s.heap.length + 1 := by
      rw [set_heap_len]; simp [s0, Store.alloc]
    let s2 : Store := { s1 with heap := s1.heap.set a (.dict [(k, .empty)]) }
    have c2 : s2.heap[a]? = some (.dict [(k, .empty)]) := by simp [s2, List.getElem?_set, l1, a]
    have g2 : s2.get r = .ok ⟨.dict, some a⟩ := by
      rw [← g1]
      refine get_congr rfl fun b hb => ?_
      have : a ≠ b := by rintro rfl; exact hra hb
      simp [s2, List.getElem?_set, this]
    refine ⟨s2, ⟨.dict, some a⟩, .dict [(k, .none)], .none, _, a, ?_, ?_,
      .dict (Fs := fun _ _ => False) c2 (by simp) ?_ (by simp) (by simp), ?_, ?_, ?_, ?_, ?_, ?_⟩
    · unfold subKey
      rw [hg]
      dsimp only
      rw [if_pos (Or.inl rfl),
        show ((s.alloc (.dict [])).set r ⟨.dict, some s.heap.length⟩).get r = .ok ⟨.dict, some s.heap.length⟩ from g1]
      dsimp only
      rw [show ((s.alloc (.dict [])).set r ⟨.dict, some s.heap.length⟩).heap[s.heap.length]? = some (.dict []) from c1]
      rfl
    · refine ⟨g2, ?_, ?_⟩
      · show s1.vars = _
        exact set_vars rfl
      · intro b _ hb
        have hb : b < s.heap.length := Nat.lt_of_not_le hb
        have : a ≠ b := by simp only [a]; omega
        have e : s2.heap[b]? = s1.heap[b]? := by simp [s2, List.getElem?_set, this]
        rw [e]
        refine set_heap_congr g0 ?_
        simp [s0, Store.alloc, List.getElem?_append_left hb]
    · intro i k1 k2 jt v e1 e2
      cases i with
      | zero => cases e1; cases e2; exact .none
      | succ i => simp at e1
    · rintro x (rfl | ⟨i, _, hx⟩)
      · exact .inr (Nat.le_refl _)
      · exact hx.elim
    · exact ((Ext.grow s [.dict []]).trans (Ext.set _ g0 rfl)).trans (Ext.insert .empty c1 rfl)
    · rw [atKey_get k g2]
      dsimp only
      rw [c2]
      dsimp only
      rw [if_neg (by simp [mapFind])]
    · simp [lookup, child, mapFind]
    · simp [s2, l1]
    · intro p
      simp [walk, replaced, mapFind, mapSet]
  | @dict a m ts Fs h1 h2 h3 h4 h5 =>
    right
    cases hf : mapFind m k with
    | some v =>
      obtain ⟨i, c, g1, g2, g3, g4, g5⟩ := same_idx h2 hf
      refine ⟨s, _, _, c, _, a, ?_, Local.refl hg, .dict h1 h2 h3 h4 h5, fun x hx => .inl hx, Ext.refl s, ?_, ?_,
        Nat.le_refl _, ?_⟩
      · rw [subKey_get (a := a) k hg (by simp) rfl, h1]
        dsimp only
        rw [hf]
      · rw [atKey_get k hg]
        dsimp only
        rw [h1]
        dsimp only
        rw [if_neg (by rw [hf]; simp)]
      · simp [lookup, child, g3]
      · intro p
        simp [walk, replaced, g3]
    | none =>
      obtain ⟨i, hi, g2, g3, g4⟩ := same_ins h2 hf
      let s1 : Store := { s with heap := s.heap.set a (.dict (mapPut m k .empty)) }
      have hlt := (List.getElem?_eq_some_iff.mp h1).1
      have c1 : s1.heap[a]? = some (.dict (mapPut m k .empty)) := by simp [s1, List.getElem?_set, hlt]
      have hra : ∀ b, r.obj = some b → a ≠ b := by rintro b hb rfl; exact hout a hb (.inl rfl)
      have gr : s1.get r = .ok ⟨.dict, some a⟩ := by
        rw [← hg]
        refine get_congr rfl fun b hb => ?_
        simp [s1, List.getElem?_set, hra b hb]
      obtain ⟨F0, n1, n2⟩ := Owns.insertDict (k := k) (h' := s1.heap) h1 h2 h3 h4 h5 hi (by rw [← g3])
      refine ⟨s1, ⟨.dict, some a⟩, .dict (ts.insertIdx i (k, .none)), .none, F0, a, ?_, ?_, n1, fun x hx => .inl (n2 x hx),
        Ext.insert .empty h1 hf, ?_, ?_, ?_, ?_⟩
      · rw [subKey_get (a := a) k hg (by simp) rfl, h1]
        dsimp only
        rw [hf]
      · refine ⟨gr, (set_get_vars hg).symm, fun b hb _ => ?_⟩
        rw [set_get_heap hg]
        have : a ≠ b := by rintro rfl; exact hb (.inl rfl)
        simp [s1, List.getElem?_set, this]
      · rw [atKey_get k gr]
        dsimp only
        rw [c1]
        dsimp only
        rw [if_neg (by rw [mapFind_mapPut]; simp)]
      · simp [lookup, child, ← g4, mapFind_mapPut]
      · simp [s1]
      · intro p
        simp [walk, replaced, g2, ← g4, mapFind_mapPut, mapSet_mapPut]

/-! ### Access paths with `[]` -/

theorem evalAt_key {s : Store} {r r' : Ref} {k : Key} {p : List Step} (h : atKey s r k = .ok r') :
    evalAt s r (.key k :: p) = evalAt s r' p := by
  rw [evalAt, h]; rfl

theorem evalAt_idx {s : Store} {r r' : Ref} {i : Nat} {p : List Step} (h : atIdx s r i = .ok r') :
    evalAt s r (.idx i :: p) = evalAt s r' p := by
  rw [evalAt, h]; rfl

/-- `x[...][...]` walks the tree: it creates what `walk` creates, throws exactly when `walk` fails, and ends at
the item that `at` with the same path then finds. -/
theorem evalSub_spec : ∀ {p : List Step} {s : Store} {r : Ref} {it : Item} {t : Json} {F : Nat → Prop},
    s.get r = .ok it → Owns s.heap it t F → Outside r F →
    ∃ (s1 : Store) (o1 : Exec Ref) (it1 : Item) (F1 : Nat → Prop), evalSub s r p = (s1, o1) ∧
      Local s s1 r F (Fresh s) it1 ∧ Owns s1.heap it1 (walk t p).1 F1 ∧ (∀ x, F1 x → F x ∨ Fresh s x) ∧ Ext s s1 ∧
      s.heap.length ≤ s1.heap.length ∧
      (((walk t p).2 = true ∧ ∃ r', o1 = .ok r' ∧ evalAt s1 r p = .ok r') ∨
        ((walk t p).2 = false ∧ ∃ e, o1 = .throw e)) := by
  intro p
  induction p with
  | nil =>
    intro s r it t F hg o hout
    exact ⟨s, .ok r, it, F, rfl, Local.refl hg, by simpa [walk] using o, fun x hx => .inl hx, Ext.refl s, Nat.le_refl _,
      .inl ⟨rfl, r, rfl, rfl⟩⟩
  | cons st p ih =>
    intro s r it t F hg o hout
    cases st with
    | idx i =>
      have e0 : subIdx s r i = atIdx s r i := rfl
      cases hc : lookup t [.idx i] with
      | none =>
        obtain ⟨e, he⟩ := evalAt_none hg o.shows hc
        have hat : ∃ e, atIdx s r i = .throw e := by
          cases h : atIdx s r i with
          | ok r' => rw [evalAt_idx h] at he; cases he
          | throw e => exact ⟨e, rfl⟩
          | ub => rw [evalAt, h] at he; cases he
        obtain ⟨e, hat⟩ := hat
        have hw : walk t (.idx i :: p) = (t, false) := by
          cases t with
          | list ts =>
            simp only [lookup, child, Option.bind_eq_none_iff] at hc
            cases hti : ts[i]? with
            | none => simp only [walk, hti]
            | some c => have := hc c hti; cases this
          | none => rfl
          | leaf v t => rfl
          | dict m => rfl
        refine ⟨s, .throw e, it, F, ?_, Local.refl hg, by rw [hw]; exact o, fun x hx => .inl hx, Ext.refl s, Nat.le_refl _,
          .inr ⟨by rw [hw], e, rfl⟩⟩
        rw [evalSub, e0, hat]
      | some c =>
        obtain ⟨r1, itr, Fr, k1, k2, k3, k4, k5, k6, k7⟩ := evalAt_some hg o hout hc
        have hat : atIdx s r i = .ok r1 := by
          cases h : atIdx s r i with
          | ok r' => rw [evalAt_idx h] at k1; exact k1
          | throw e => rw [evalAt, h] at k1; cases k1
          | ub => rw [evalAt, h] at k1; cases k1
        obtain ⟨s1, o1, it1, F1, m1, m2, m3, m4, m5, m6, m7⟩ := ih k2 k3 k4
        obtain ⟨it0, F0, n1, n2, n3⟩ := k7 s1 (Fresh s) (outside_fresh hg) (fresh_disjoint o) it1 _ F1 m2 m3 m4
        have hw : walk t (.idx i :: p) = (replaced t [.idx i] (walk c p).1, (walk c p).2) := by
          cases t with
          | list ts =>
            simp only [lookup, child, Option.bind_eq_some_iff] at hc
            obtain ⟨c', hti, h'⟩ := hc
            cases h'
            simp only [walk, hti, replaced]
          | none => simp [lookup, child] at hc
          | leaf v t => simp [lookup, child] at hc
          | dict m => simp [lookup, child] at hc
        refine ⟨s1, o1, it0, F0, ?_, n1, by rw [hw]; exact n2, n3, m5, m6, ?_⟩
        · rw [evalSub, e0, hat]; exact m1
        · rw [hw]
          rcases m7 with ⟨w1, r', w2, w3⟩ | w
          · exact .inl ⟨w1, r', w2, by rw [evalAt_idx (m5.atIdx hat k2)]; exact w3⟩
          · exact .inr w
    | key k =>
      rcases subKey_spec k hg o hout with ⟨⟨e, he⟩, hw⟩ | ⟨s0, it0, t0, c, F0, a, j1, j2, j3, j4, j5, j6, j7, j8, hw⟩
      · refine ⟨s, .throw e, it, F, ?_, Local.refl hg, by rw [hw]; exact o, fun x hx => .inl hx, Ext.refl s, Nat.le_refl _,
          .inr ⟨by rw [hw], e, rfl⟩⟩
        rw [evalSub, he]
      · have hout0 : Outside r F0 := by
          intro b hb hF
          rcases j4 b hF with h | h
          · exact hout b hb h
          · exact outside_fresh hg b hb h
        obtain ⟨r1, itr, Fr, k1, k2, k3, k4, k5, k6, k7⟩ := evalAt_some j2.get j3 hout0 j7
        have hr1 : r1 = .field a k := by
          rw [evalAt_key j6] at k1
          cases k1
          rfl
        subst hr1
        obtain ⟨s1, o1, it1, F1, m1, m2, m3, m4, m5, m6, m7⟩ := ih k2 k3 k4
        obtain ⟨it2, F2, n1, n2, n3⟩ := k7 s1 (Fresh s0) (outside_fresh j2.get) (fresh_disjoint j3) it1 _ F1 m2 m3 m4
        have hfr : ∀ x, Fresh s0 x → Fresh s x := fun x hx => Nat.le_trans j8 hx
        refine ⟨s1, o1, it2, F2, ?_, Local.trans hg j2 n1 j4 hfr, by rw [hw]; exact n2, ?_, j5.trans m5,
          Nat.le_trans j8 m6, ?_⟩
        · rw [evalSub, j1]; exact m1
        · intro x hx
          rcases n3 x hx with h | h
          · exact j4 x h
          · exact .inr (hfr x h)
        · rw [hw]
          rcases m7 with ⟨w1, r', w2, w3⟩ | w
          · exact .inl ⟨w1, r', w2, by rw [evalAt_key (m5.atKey j6 k2)]; exact w3⟩
          · exact .inr w

/-- `Ext` keeps the ends of paths. -/
theorem Ext.evalAt {s s' : Store} (e : Ext s s') : ∀ {p : List Step} {r r' : Ref} {it : Item} {t : Json} {F : Nat → Prop},
    s.get r = .ok it → Owns s.heap it t F → Outside r F → evalAt s r p = .ok r' → evalAt s' r p = .ok r' := by
  intro p
  induction p with
  | nil => intro r r' it t F _ _ _ h; exact h
  | cons st p ih =>
    intro r r' it t F hg o hout h
    cases hl : lookup t [st] with
    | none =>
      obtain ⟨m, hm⟩ := evalAt_none hg o.shows hl
      cases st with
      | idx i =>
        cases ha : Js.atIdx s r i with
        | ok x => rw [evalAt_idx ha] at hm; cases hm
        | throw e => rw [Js.evalAt, ha] at h; cases h
        | ub => rw [Js.evalAt, ha] at h; cases h
      | key k =>
        cases ha : Js.atKey s r k with
        | ok x => rw [evalAt_key ha] at hm; cases hm
        | throw e => rw [Js.evalAt, ha] at h; cases h
        | ub => rw [Js.evalAt, ha] at h; cases h
    | some c =>
      obtain ⟨r1, itr, Fr, k1, k2, k3, k4, -, -, -⟩ := evalAt_some hg o hout hl
      cases st with
      | idx i =>
        cases ha : Js.atIdx s r i with
        | ok x =>
          rw [evalAt_idx ha] at h k1
          cases k1
          rw [evalAt_idx (e.atIdx ha k2)]
          exact ih k2 k3 k4 h
        | throw e => rw [Js.evalAt, ha] at h; cases h
        | ub => rw [Js.evalAt, ha] at h; cases h
      | key k =>
        cases ha : Js.atKey s r k with
        | ok x =>
          rw [evalAt_key ha] at h k1
          cases k1
          rw [evalAt_key (e.atKey ha k2)]
          exact ih k2 k3 k4 h
        | throw e => rw [Js.evalAt, ha] at h; cases h
        | ub => rw [Js.evalAt, ha] at h; cases h

end Verif.Js

import Verif.Proofs.JsonTree

/-
C54: JSON items behave like trees of lists and key-sorted dictionaries.
-/

namespace Verif.Props

open Verif.Js Verif.Text Verif.Spec

theorem soundAll_reply : ∀ {cs : List Cmd} {ts : List Json}, SoundAll ts cs → .undefined ∉ (treeExecAll ts cs).2 := by
  intro cs
  induction cs with
  | nil => intro ts _; simp [treeExecAll]
  | cons c cs ih =>
    intro ts h
    simp only [treeExecAll, List.mem_cons, not_or]
    exact ⟨Ne.symm (sound_reply h.1), ih h.2⟩

/-- C54: for every program, run on items in memory, each statement ends as it ends on independent trees, none
has an undefined outcome, and afterwards every variable shows its tree, whose dictionaries are sorted by key.
(The recursion of the copy constructor needs some depth `N`, which depends on the program only.) -/
theorem C54_program {cs : List Cmd} (h : SoundAll [] cs) :
    ∃ N, ∀ n, N ≤ n →
      (execAll n ⟨[], []⟩ cs).2.map replyOf = (treeExecAll [] cs).2 ∧
      .undefined ∉ (treeExecAll [] cs).2 ∧
      (execAll n ⟨[], []⟩ cs).1.vars.length = (treeExecAll [] cs).1.length ∧
      ∀ (x : Nat) (t : Json), (treeExecAll [] cs).1[x]? = some t →
        Ordered t ∧ ∃ it, (execAll n ⟨[], []⟩ cs).1.vars[x]? = some it ∧ Shows (execAll n ⟨[], []⟩ cs).1.heap it t := by
  obtain ⟨N, hN⟩ := execAll_spec cs [] (soundAll_reply h)
  refine ⟨N, fun n hn => ?_⟩
  obtain ⟨inv, hr⟩ := hN n hn ⟨[], []⟩ ⟨rfl, fun _ _ => False, by simp, by simp⟩
  refine ⟨hr, soundAll_reply h, inv.1, fun x t hx => ⟨?_, ?_⟩⟩
  · exact treeExecAll_ordered cs (by simp) t (List.mem_of_getElem? hx)
  · obtain ⟨it, F, g1, g2, -⟩ := inv.var hx
    exact ⟨it, rd_iff.mp g1, g2.shows⟩

theorem shows_at : ∀ {p : List Step} {s : Store} {r : Ref} {it : Item} {t c : Json}, s.get r = .ok it →
    Shows s.heap it t → lookup t p = some c →
    ∃ (r' : Ref) (it' : Item), evalAt s r p = .ok r' ∧ s.get r' = .ok it' ∧ Shows s.heap it' c := by
  intro p
  induction p with
  | nil => intro s r it t c hg o h; cases h; exact ⟨r, it, rfl, hg, o⟩
  | cons st p ih =>
    intro s r it t c hg o h
    simp only [lookup, Option.bind_eq_some_iff] at h
    obtain ⟨d, hd, h⟩ := h
    cases o with
    | none => simp [child] at hd
    | leaf h1 => simp [child] at hd
    | @list a is ts h1 h2 h3 =>
      cases st with
      | key k => simp [child] at hd
      | idx i =>
        simp only [child] at hd
        have hi : i < is.length := by have := (List.getElem?_eq_some_iff.mp hd).1; omega
        have hci : is[i]? = some is[i] := by simp [hi]
        obtain ⟨r', it', k1, k2, k3⟩ := ih (get_elem_of h1 hci) (h3 i _ d hci hd) h
        refine ⟨r', it', ?_, k2, k3⟩
        rw [evalAt_idx (r' := .elem a i), k1]
        rw [atIdx_get i hg]
        dsimp only
        rw [h1]
        dsimp only
        rw [if_neg (by omega)]
    | @dict a m ts h1 h2 h3 =>
      cases st with
      | idx i => simp [child] at hd
      | key k =>
        simp only [child] at hd
        obtain ⟨i, c1, g1, g2, g3, -, -⟩ := same_idx h2.symm hd
        obtain ⟨r', it', k1, k2, k3⟩ := ih (get_field_of h1 g3) (h3 i k k c1 d g2 g1) h
        refine ⟨r', it', ?_, k2, k3⟩
        rw [evalAt_key (r' := .field a k), k1]
        rw [atKey_get k hg]
        dsimp only
        rw [h1]
        dsimp only
        rw [if_neg (by rw [g3]; simp)]

/-- C54: `at` along a path finds the item that shows the part of the tree at that path, `size` tells the number
of items there, and `at` throws exactly when the tree has no such part. -/
theorem C54_reading {s : Store} {x : Nat} {it : Item} {t : Json} (hx : s.vars[x]? = some it)
    (h : Shows s.heap it t) (p : List Step) :
    (∀ c, lookup t p = some c → ∃ (r : Ref) (it' : Item), evalAt s (.var x) p = .ok r ∧ s.get r = .ok it' ∧
      Shows s.heap it' c ∧ sizeOf' s r = .ok (count c)) ∧
    (lookup t p = .none → ∃ e, evalAt s (.var x) p = .throw e) := by
  have hg : s.get (.var x) = .ok it := rd_iff.mpr hx
  refine ⟨fun c hc => ?_, fun hn => evalAt_none hg h hn⟩
  obtain ⟨r, it', k1, k2, k3⟩ := shows_at hg h hc
  refine ⟨r, it', k1, k2, k3, ?_⟩
  unfold sizeOf'
  rw [k2]
  simp only [Exec.bind_ok]
  cases k3 with
  | none => rfl
  | leaf h1 => dsimp only; rw [h1]; rfl
  | list h1 h2 h3 => dsimp only; rw [h1]; simp [count, h2]
  | dict h1 h2 h3 =>
    dsimp only
    rw [h1]
    have := congrArg List.length h2
    simp at this
    simp [count, this]

/-- C54: an item shows one tree only. -/
theorem C54_one_tree {h : Heap} {it : Item} {t u : Json} (ht : Shows h it t) (hu : Shows h it u) : t = u := by
  induction ht generalizing u with
  | none => cases hu; rfl
  | leaf h1 => cases hu with | leaf h1' => rw [h1] at h1'; cases h1'; rfl
  | @list a is ts h1 h2 h3 ih =>
    cases hu with
    | @list _ is' us h1' h2' h3' =>
      rw [h1] at h1'
      cases h1'
      congr 1
      refine List.ext_getElem (by omega) fun i hi hi' => ?_
      have hci : is[i]? = some (is[i]'(by omega)) := by simp
      exact ih i _ _ hci (by simp [hi]) (h3' i _ _ hci (by simp [hi']))
  | @dict a m ts h1 h2 h3 ih =>
    cases hu with
    | @dict _ m' us h1' h2' h3' =>
      rw [h1] at h1'
      cases h1'
      congr 1
      have l1 : m.length = ts.length := by simpa using congrArg List.length h2
      have l2 : m.length = us.length := by simpa using congrArg List.length h2'
      refine List.ext_getElem (by omega) fun i hi hi' => ?_
      have hci : m[i]? = some ((m[i]'(by omega)).1, (m[i]'(by omega)).2) := by simp
      have e1 : ts[i]? = some (ts[i].1, ts[i].2) := by simp [hi]
      have e2 : us[i]? = some (us[i].1, us[i].2) := by simp [hi']
      refine Prod.ext ?_ (ih i _ _ _ _ hci e1 (h3' i _ _ _ _ hci e2))
      have : (ts.map Prod.fst)[i]? = (us.map Prod.fst)[i]? := by rw [← h2, h2']
      simpa [hi, hi'] using this

/-- C54: after `x[p] = y.at(q)` the value is read back at `p`, every other part of `x` that was there is as
before, and no other variable changes. -/
theorem C54_write {ts : List Json} {x y : Nat} {p q : List Step} {tx ty : Json} (hx : ts[x]? = some tx)
    (hy : ts[y]? = some ty) (hd : (treeExec ts (.assign x p y q)).2 = .done) :
    ∃ t u, (treeExec ts (.assign x p y q)).1 = ts.set x t ∧ lookup t p = some u ∧
      (x ≠ y ∨ ¬ q <+: p → lookup ty q = some u) ∧
      ∀ r c, Apart p r → lookup tx r = some c → lookup t r = some c := by
  simp only [treeExec, hx, hy] at hd ⊢
  split at hd
  · cases hd
  rename_i hl
  rw [if_neg hl]
  split at hd
  · rename_i hw
    rw [if_pos hw]
    split at hd
    · rename_i u hu
      obtain ⟨c, hc⟩ := lookup_walk_self hw
      refine ⟨_, u, rfl, lookup_replace hc, ?_, ?_⟩
      · intro hor
        obtain ⟨c0, hc0⟩ := Option.ne_none_iff_exists'.mp hl
        by_cases e : x = y
        · subst e
          rw [List.getElem?_set_self (List.getElem?_eq_some_iff.mp hx).1] at hu
          rw [hx] at hy
          cases hy
          have hq : ¬ q <+: p := hor.resolve_left (fun h => h rfl)
          simp only [Option.bind_some, lookup_walk_off hq hc0] at hu
          rw [hc0, hu]
        · rw [List.getElem?_set_ne e, hy] at hu
          exact hu
      · intro r c' hr hc'
        rw [lookup_replace_apart hr]
        exact lookup_walk_off hr.2 hc'
    · cases hd
  · cases hd

theorem lookup_walk_new : ∀ {p : List Step} {t : Json}, lookup t p = .none → (walk t p).2 = true →
    lookup (walk t p).1 p = some .none := by
  intro p
  induction p with
  | nil => intro t h _; cases h
  | cons st p ih =>
    intro t h hw
    have empty : (walk .none p).2 = true → lookup (walk .none p).1 p = some .none := by
      intro hw
      cases p with
      | nil => rfl
      | cons s p => exact ih rfl hw
    cases t with
    | none =>
      cases st with
      | idx i => simp [walk] at hw
      | key k =>
        simp only [walk] at hw
        simp [walk, lookup, child, mapFind, empty hw]
    | leaf v ty => cases st <;> simp [walk] at hw
    | list ts =>
      cases st with
      | key k => simp [walk] at hw
      | idx i =>
        cases hi : ts[i]? with
        | none => simp [walk, hi] at hw
        | some e =>
          simp only [walk, hi] at hw
          simp only [lookup, child, hi, Option.bind_some] at h
          simp only [walk, hi, lookup, child]
          rw [List.getElem?_set_self (List.getElem?_eq_some_iff.mp hi).1]
          exact ih h hw
    | dict m =>
      cases st with
      | idx i => simp [walk] at hw
      | key k =>
        cases hk : mapFind m k with
        | none =>
          simp only [walk, hk] at hw
          simp [walk, lookup, child, hk, mapFind_mapPut, empty hw]
        | some e =>
          simp only [walk, hk] at hw
          simp only [lookup, child, hk, Option.bind_some] at h
          simp [walk, lookup, child, hk, mapFind_mapSet hk, ih h hw]

/-- C54: after `x[p].append(y.at(q))` the list at `p` has the value as its new last item (a missing or empty item
became a list), every other part of `x` that was there is as before, and no other variable changes. -/
theorem C54_append {ts : List Json} {x y : Nat} {p q : List Step} {tx ty : Json} (hx : ts[x]? = some tx)
    (hy : ts[y]? = some ty) (hd : (treeExec ts (.append x p y q)).2 = .done) :
    ∃ t us u, (treeExec ts (.append x p y q)).1 = ts.set x t ∧ lookup t p = some (.list (us ++ [u])) ∧
      ((lookup tx p = some (.list us)) ∨ (us = [] ∧ (lookup tx p = .none ∨ lookup tx p = some .none))) ∧
      (x ≠ y → lookup ty q = some u) ∧ (∀ c, lookup tx p = some c → lookup ty q = some u) ∧
      ∀ r c, Apart p r → lookup tx r = some c → lookup t r = some c := by
  simp only [treeExec, hx, hy] at hd ⊢
  split at hd
  · rename_i hw
    rw [if_pos hw]
    split at hd
    · cases hd
    · rename_i u hu
      split at hd
      · rename_i c hc
        obtain ⟨d, hd1, hd2⟩ := Option.bind_eq_some_iff.mp hc
        have src : (ts.set x (walk tx p).1)[y]? = some ty → lookup ty q = some u := by
          intro e; rw [e] at hu; exact hu
        have h1 : ∃ us, c = .list (us ++ [u]) ∧
            ((lookup tx p = some (.list us)) ∨ (us = [] ∧ (lookup tx p = .none ∨ lookup tx p = some .none))) := by
          cases he : lookup tx p with
          | none =>
            rw [lookup_walk_new he hw] at hd1
            cases hd1
            cases hd2
            exact ⟨[], rfl, .inr ⟨rfl, .inl rfl⟩⟩
          | some c0 =>
            rw [walk_exists he, he] at hd1
            cases hd1
            cases d with
            | none => cases hd2; exact ⟨[], rfl, .inr ⟨rfl, .inr rfl⟩⟩
            | list us => cases hd2; exact ⟨us, rfl, .inl rfl⟩
            | leaf v t => cases hd2
            | dict m => cases hd2
        obtain ⟨us, rfl, h2⟩ := h1
        refine ⟨_, us, u, rfl, lookup_replace hd1, h2, ?_, ?_, ?_⟩
        · intro e
          exact src (by rw [List.getElem?_set_ne e, hy])
        · intro c0 he
          refine src ?_
          rw [walk_exists he, set_same hx, hy]
        · intro r c' hr hc'
          rw [lookup_replace_apart hr]
          exact lookup_walk_off hr.2 hc'
      · cases hd
  · cases hd

/-- C54: an access that throws changes no tree: reading, one subscript, an assignment through one subscript,
an append to a variable. -/
theorem C54_throw {ts : List Json} {c : Cmd} (ht : (treeExec ts c).2 = .threw)
    (hc : match c with
      | .touch _ p => p.length ≤ 1
      | .assign _ p _ _ => p.length ≤ 1
      | .append _ p _ _ => p = []
      | _ => True) :
    (treeExec ts c).1 = ts := by
  have one : ∀ (t : Json) (p : List Step), p.length ≤ 1 → (walk t p).2 = false → (walk t p).1 = t := by
    intro t p hp hw
    cases p with
    | nil => simp [walk] at hw
    | cons st p =>
      cases p with
      | cons _ _ => simp at hp
      | nil =>
        cases t with
        | none => cases st <;> simp [walk] at hw ⊢
        | leaf v ty => cases st <;> rfl
        | list us =>
          cases st with
          | key k => rfl
          | idx i =>
            cases hi : us[i]? with
            | none => simp [walk, hi]
            | some e => simp [walk, hi] at hw
        | dict m =>
          cases st with
          | idx i => rfl
          | key k => cases hk : mapFind m k <;> simp [walk, hk] at hw
  cases c with
  | empty => cases ht
  | leaf v t => cases ht
  | list xs => simp only [treeExec] at ht; split at ht <;> cases ht
  | dict kxs =>
    simp only [treeExec] at ht
    split at ht
    · cases ht
    · split at ht <;> cases ht
  | copy x p =>
    simp only [treeExec] at ht ⊢
    split at ht
    · split at ht
      · cases ht
      · rfl
    · cases ht
  | touch x p =>
    simp only [treeExec] at ht ⊢
    split at ht
    · rename_i t e
      split at ht
      · cases ht
      · rename_i hw
        rw [one t p hc (by simpa using hw), set_same e]
    · cases ht
  | assign x p y q =>
    simp only [treeExec] at ht ⊢
    split at ht
    · rename_i tx ty ex ey
      split at ht
      · rename_i hl; rw [if_pos hl]
      · rename_i hl
        rw [if_neg hl]
        split at ht
        · split at ht <;> cases ht
        · rename_i hw
          rw [if_neg hw, one tx p hc (by simpa using hw), set_same ex]
    · cases ht
  | append x p y q =>
    cases hc
    simp only [treeExec] at ht ⊢
    split at ht
    · rename_i tx ty ex ey
      simp only [walk, if_true, set_same ex] at ht ⊢
      split at ht
      · rfl
      · rename_i u hu
        split at ht
        · cases ht
        · rfl
    · cases ht

/-- C54: copies are deep: whatever a program does afterwards to other variables, a copy keeps showing the value
it was made from, and the original is not changed through the copy. -/
theorem C54_copy {cs ds : List Cmd} {x : Nat} {p : List Step} {t u : Json}
    (h : SoundAll [] (cs ++ .copy x p :: ds)) (hx : (treeExecAll [] cs).1[x]? = some t) (hl : lookup t p = some u)
    (hd : ∀ d ∈ ds, target d ≠ some (treeExecAll [] cs).1.length) :
    ∃ N, ∀ n, N ≤ n → ∃ it, (execAll n ⟨[], []⟩ (cs ++ .copy x p :: ds)).1.vars[(treeExecAll [] cs).1.length]? = some it ∧
      Shows (execAll n ⟨[], []⟩ (cs ++ .copy x p :: ds)).1.heap it u := by
  have app : ∀ (cs : List Cmd) (ts : List Json) (ds : List Cmd),
      (treeExecAll ts (cs ++ ds)).1 = (treeExecAll (treeExecAll ts cs).1 ds).1 := by
    intro cs
    induction cs with
    | nil => intro ts ds; rfl
    | cons c cs ih => intro ts ds; exact ih _ _
  obtain ⟨N, hN⟩ := C54_program h
  refine ⟨N, fun n hn => ?_⟩
  obtain ⟨-, -, -, h4⟩ := hN n hn
  refine (h4 _ u ?_).2
  rw [app]
  refine treeExecAll_other (cs := ds) ?_ hd
  simp only [treeExec, hx, hl]
  simp

/-- C54: a statement changes no variable but the one it writes to. -/
theorem C54_other_variables {ts : List Json} {c : Cmd} {x : Nat} {t : Json} (hx : ts[x]? = some t)
    (hc : target c ≠ some x) : (treeExec ts c).1[x]? = some t := treeExec_other hx hc

/-- The hypotheses are met: `x["b"] = 1; x["a"].append(x["b"]); y = x; x["b"] = true; x.append(y); x[0];`. -/
example : SoundAll [] [.empty, .leaf ['1'] .int, .leaf ['t', 'r', 'u', 'e'] .bool,
      .assign 0 [.key ['b']] 1 [], .append 0 [.key ['a']] 0 [.key ['b']], .copy 0 [],
      .assign 0 [.key ['b']] 2 [], .append 0 [] 3 [], .touch 0 [.idx 0]] ∧
    treeExecAll [] [.empty, .leaf ['1'] .int, .leaf ['t', 'r', 'u', 'e'] .bool,
      .assign 0 [.key ['b']] 1 [], .append 0 [.key ['a']] 0 [.key ['b']], .copy 0 [],
      .assign 0 [.key ['b']] 2 [], .append 0 [] 3 [], .touch 0 [.idx 0]] =
    ([.dict [(['a'], .list [.leaf ['1'] .int]), (['b'], .leaf ['t', 'r', 'u', 'e'] .bool)],
      .leaf ['1'] .int, .leaf ['t', 'r', 'u', 'e'] .bool,
      .dict [(['a'], .list [.leaf ['1'] .int]), (['b'], .leaf ['1'] .int)]],
      [.done, .done, .done, .done, .done, .done, .done, .threw, .threw]) := by
  have lt : ∀ {a b : Nat}, a.ble b = true → a ≤ b := Nat.le_of_ble_eq_true
  exact ⟨⟨trivial, trivial, trivial, ⟨lt rfl, lt rfl⟩, ⟨lt rfl, lt rfl⟩, lt rfl, ⟨lt rfl, lt rfl⟩, ⟨lt rfl, lt rfl⟩,
    lt rfl, trivial⟩, rfl⟩

end Verif.Props

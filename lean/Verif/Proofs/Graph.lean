import Verif.Proofs.GraphRun

/-
Sets, edges, and the invariant of the graph under all operations.
-/

namespace Verif.Graph

theorem mem_insertSet (t x : Nat) (s : List Nat) : x ∈ insertSet t s ↔ x = t ∨ x ∈ s := by
  induction s with
  | nil => simp [insertSet]
  | cons y s ih =>
    unfold insertSet
    split
    · rename_i h; subst h; simp
    · split
      · simp
      · simp only [List.mem_cons, ih]; tauto

theorem insertSet_sorted (t : Nat) (s : List Nat) (h : s.Pairwise (· < ·)) :
    (insertSet t s).Pairwise (· < ·) := by
  induction s with
  | nil => simp [insertSet]
  | cons y s ih =>
    rw [List.pairwise_cons] at h
    unfold insertSet
    split
    · rw [List.pairwise_cons]; exact h
    · split
      · rename_i h1 h2
        rw [List.pairwise_cons, List.pairwise_cons]
        refine ⟨?_, h⟩
        intro z hz
        rcases List.mem_cons.mp hz with hz | hz
        · omega
        · have := h.1 z hz; omega
      · rename_i h1 h2
        rw [List.pairwise_cons]
        refine ⟨?_, ih h.2⟩
        intro z hz
        rcases (mem_insertSet t z s).mp hz with hz | hz
        · omega
        · exact h.1 z hz

/-- Keys increasing, every set increasing. -/
structure EdgesOk (e : Edges) : Prop where
  keys : (e.map Prod.fst).Pairwise (· < ·)
  sets : ∀ p ∈ e, p.2.Pairwise (· < ·)

theorem edgesOk_nil : EdgesOk [] := ⟨by simp, by simp⟩

theorem mem_insertEdge {f t : Nat} {e : Edges} {p : Nat × List Nat} (h : p ∈ insertEdge f t e) :
    (p.1 = f ∧ (p.2 = [t] ∨ ∃ s, (f, s) ∈ e ∧ p.2 = insertSet t s)) ∨ p ∈ e := by
  induction e with
  | nil => simp [insertEdge] at h; subst h; left; exact ⟨rfl, Or.inl rfl⟩
  | cons q e ih =>
    obtain ⟨k, s⟩ := q
    unfold insertEdge at h
    split at h
    · rename_i hk; subst hk
      rcases List.mem_cons.mp h with h | h
      · subst h; left; exact ⟨rfl, Or.inr ⟨s, by simp, rfl⟩⟩
      · right; simp [h]
    · split at h
      · rcases List.mem_cons.mp h with h | h
        · subst h; left; exact ⟨rfl, Or.inl rfl⟩
        · right; exact h
      · rcases List.mem_cons.mp h with h | h
        · right; simp [h]
        · rcases ih h with ⟨h1, h2 | ⟨u, h3, h4⟩⟩ | h'
          · left; exact ⟨h1, Or.inl h2⟩
          · left; exact ⟨h1, Or.inr ⟨u, by simp [h3], h4⟩⟩
          · right; simp [h']

theorem insertEdge_ok (f t : Nat) (e : Edges) (h : EdgesOk e) : EdgesOk (insertEdge f t e) := by
  constructor
  · have hk := h.keys
    clear h
    induction e with
    | nil => simp [insertEdge]
    | cons q e ih =>
      obtain ⟨k, s⟩ := q
      rw [List.map_cons, List.pairwise_cons] at hk
      unfold insertEdge
      split
      · rw [List.map_cons, List.pairwise_cons]; exact hk
      · split
        · rename_i h1 h2
          rw [List.map_cons, List.pairwise_cons, List.map_cons, List.pairwise_cons]
          refine ⟨?_, hk⟩
          intro z hz
          rcases List.mem_cons.mp hz with hz | hz
          · subst hz; exact h2
          · exact Nat.lt_trans h2 (hk.1 z hz)
        · rename_i h1 h2
          rw [List.map_cons, List.pairwise_cons]
          refine ⟨?_, ih hk.2⟩
          intro z hz
          obtain ⟨p, hp, rfl⟩ := List.mem_map.mp hz
          rcases mem_insertEdge hp with ⟨h3, _⟩ | h3
          · show k < p.1; omega
          · exact hk.1 _ (List.mem_map.mpr ⟨p, h3, rfl⟩)
  · intro p hp
    rcases mem_insertEdge hp with ⟨_, h2 | ⟨s, h3, h4⟩⟩ | h'
    · rw [h2]; simp
    · rw [h4]; exact insertSet_sorted t s (h.sets _ h3)
    · exact h.sets p h'

theorem successors_nil (x : Nat) : successors [] x = [] := rfl

theorem successors_cons (k : Nat) (s : List Nat) (e : Edges) (x : Nat) :
    successors ((k, s) :: e) x = if k = x then s else successors e x := by
  unfold successors
  rw [List.find?_cons]
  by_cases h : k = x
  · subst h; simp
  · rw [if_neg h]
    have : (k == x) = false := by simpa using h
    simp [this]

theorem successors_of_key_lt {e : Edges} {x : Nat} (h : ∀ k ∈ e.map Prod.fst, x < k) :
    successors e x = [] := by
  induction e with
  | nil => rfl
  | cons q e ih =>
    obtain ⟨k, s⟩ := q
    rw [successors_cons]
    have : x < k := h k (by simp)
    rw [if_neg (by omega)]
    exact ih (fun k hk => h k (by simp at hk ⊢; exact Or.inr hk))

theorem mem_successors_insert (f t : Nat) (e : Edges) (h : EdgesOk e) (x y : Nat) :
    y ∈ successors (insertEdge f t e) x ↔ (x = f ∧ y = t) ∨ y ∈ successors e x := by
  have hk := h.keys
  clear h
  induction e with
  | nil =>
    simp only [insertEdge, successors_cons, successors_nil]
    by_cases hx : f = x
    · subst hx; simp
    · rw [if_neg hx]; simp; intro h; exact absurd h.symm hx
  | cons q e ih =>
    obtain ⟨k, s⟩ := q
    rw [List.map_cons, List.pairwise_cons] at hk
    unfold insertEdge
    split
    · rename_i hf; subst hf
      rw [successors_cons, successors_cons]
      by_cases hx : f = x
      · subst hx
        rw [if_pos rfl, if_pos rfl, mem_insertSet]
        simp
      · rw [if_neg hx, if_neg hx]
        constructor
        · exact Or.inr
        · rintro (⟨h, _⟩ | h)
          · exact absurd h.symm hx
          · exact h
    · split
      · rename_i h1 h2
        rw [successors_cons]
        by_cases hx : f = x
        · subst hx
          rw [if_pos rfl]
          have : successors ((k, s) :: e) f = [] := successors_of_key_lt (by
            intro z hz
            rw [List.map_cons] at hz
            rcases List.mem_cons.mp hz with hz | hz
            · subst hz; exact h2
            · exact Nat.lt_trans h2 (hk.1 z hz))
          rw [this]; simp
        · rw [if_neg hx]
          constructor
          · exact Or.inr
          · rintro (⟨h, _⟩ | h)
            · exact absurd h.symm hx
            · exact h
      · rename_i h1 h2
        rw [successors_cons, successors_cons]
        by_cases hx : k = x
        · subst hx
          rw [if_pos rfl, if_pos rfl]
          constructor
          · exact Or.inr
          · rintro (⟨h, _⟩ | h)
            · exact absurd h.symm h1
            · exact h
        · rw [if_neg hx, if_neg hx]
          exact ih hk.2

theorem mem_successors {e : Edges} (h : EdgesOk e) (x y : Nat) :
    y ∈ successors e x ↔ ∃ s, (x, s) ∈ e ∧ y ∈ s := by
  have hk := h.keys
  clear h
  induction e with
  | nil => simp [successors_nil]
  | cons q e ih =>
    obtain ⟨k, s⟩ := q
    rw [List.map_cons, List.pairwise_cons] at hk
    rw [successors_cons]
    by_cases hx : k = x
    · subst hx
      rw [if_pos rfl]
      constructor
      · intro hy; exact ⟨s, by simp, hy⟩
      · rintro ⟨u, hu, hy⟩
        rcases List.mem_cons.mp hu with hu | hu
        · injection hu with _ hu; subst hu; exact hy
        · have := hk.1 k (List.mem_map.mpr ⟨(k, u), hu, rfl⟩)
          omega
    · rw [if_neg hx]
      refine (ih hk.2).trans ?_
      constructor
      · rintro ⟨u, hu, hy⟩; exact ⟨u, by simp [hu], hy⟩
      · rintro ⟨u, hu, hy⟩
        rcases List.mem_cons.mp hu with hu | hu
        · injection hu with hu _; exact absurd hu.symm hx
        · exact ⟨u, hu, hy⟩

theorem successors_nodup {e : Edges} (h : EdgesOk e) (x : Nat) : (successors e x).Nodup := by
  unfold successors
  cases hf : e.find? (fun p => p.1 == x) with
  | none => simp
  | some p =>
    have := h.sets p (List.mem_of_find?_eq_some hf)
    exact this.imp (fun hab => Nat.ne_of_lt hab)

theorem successors_key {e : Edges} {x : Nat} (h : successors e x ≠ []) : x ∈ e.map Prod.fst := by
  unfold successors at h
  cases hf : e.find? (fun p => p.1 == x) with
  | none => rw [hf] at h; simp at h
  | some p =>
    have h1 := List.mem_of_find?_eq_some hf
    have h2 := List.find?_some hf
    exact List.mem_map.mpr ⟨p, h1, by simpa using h2⟩

theorem hasSuccessors_iff (e : Edges) (x : Nat) :
    hasSuccessors e x = true ↔ ∃ y, y ∈ successors e x := by
  unfold hasSuccessors successors
  cases e.find? (fun p => p.1 == x) with
  | none => simp
  | some p =>
    cases hp : p.2 with
    | nil => simp [hp]
    | cons a as => simp [hp]

theorem hasPredecessors_iff {e : Edges} (h : EdgesOk e) (y : Nat) :
    hasPredecessors e y = true ↔ ∃ x, y ∈ successors e x := by
  unfold hasPredecessors
  rw [List.any_eq_true]
  constructor
  · rintro ⟨p, hp, hc⟩
    exact ⟨p.1, (mem_successors h p.1 y).mpr ⟨p.2, hp, by simpa using hc⟩⟩
  · rintro ⟨x, hx⟩
    obtain ⟨s, h1, h2⟩ := (mem_successors h x y).mp hx
    exact ⟨(x, s), h1, by simpa using h2⟩

theorem mem_predecessors {e : Edges} (h : EdgesOk e) (x y : Nat) :
    x ∈ predecessors e y ↔ y ∈ successors e x := by
  have gen : ∀ (l : Edges) (ret : List Nat),
      x ∈ l.foldl (fun ret p => if p.2.contains y then insertSet p.1 ret else ret) ret ↔
        x ∈ ret ∨ ∃ p ∈ l, p.1 = x ∧ y ∈ p.2 := by
    intro l
    induction l with
    | nil => simp
    | cons p l ih =>
      intro ret
      rw [List.foldl_cons, ih]
      by_cases hp : y ∈ p.2
      · rw [if_pos (by simpa using hp), mem_insertSet]
        constructor
        · rintro ((h | h) | ⟨q, h1, h2⟩)
          · exact Or.inr ⟨p, by simp, h.symm, hp⟩
          · exact Or.inl h
          · exact Or.inr ⟨q, by simp [h1], h2⟩
        · rintro (h | ⟨q, h1, h2, h3⟩)
          · exact Or.inl (Or.inr h)
          · rcases List.mem_cons.mp h1 with h1 | h1
            · subst h1; exact Or.inl (Or.inl h2.symm)
            · exact Or.inr ⟨q, h1, h2, h3⟩
      · rw [if_neg (by simpa using hp)]
        constructor
        · rintro (h | ⟨q, h1, h2⟩)
          · exact Or.inl h
          · exact Or.inr ⟨q, by simp [h1], h2⟩
        · rintro (h | ⟨q, h1, h2, h3⟩)
          · exact Or.inl h
          · rcases List.mem_cons.mp h1 with h1 | h1
            · subst h1; exact absurd h3 hp
            · exact Or.inr ⟨q, h1, h2, h3⟩
  unfold predecessors
  rw [gen e [], mem_successors h]
  simp only [List.not_mem_nil, false_or]
  constructor
  · rintro ⟨p, h1, h2, h3⟩; exact ⟨p.2, by rw [← h2]; exact h1, h3⟩
  · rintro ⟨s, h1, h2⟩; exact ⟨(x, s), h1, rfl, h2⟩

/-! ### add_arc -/

theorem idxOf?_none {l : List Ptr} {a : Ptr} : l.idxOf? a = none ↔ a ∉ l := by
  simp only [List.idxOf?, List.findIdx?_eq_none_iff, beq_eq_false_iff_ne]
  exact ⟨fun h hm => h a hm rfl, fun h x hx he => h (he ▸ hx)⟩

theorem idxOf?_some {l : List Ptr} {a : Ptr} {i : Nat} (h : l.idxOf? a = some i) :
    i < l.length ∧ l[i]? = some a ∧ ∀ j, j < i → l[j]? ≠ some a := by
  unfold List.idxOf? at h
  rw [List.findIdx?_eq_some_iff_getElem] at h
  obtain ⟨h1, h2, h3⟩ := h
  refine ⟨h1, ?_, ?_⟩
  · rw [List.getElem?_eq_getElem h1]; simpa using h2
  · intro j hj he
    have hj' : j < l.length := by omega
    have := h3 j hj
    rw [List.getElem?_eq_getElem hj'] at he
    injection he with he
    simp [he] at this

theorem addArc_throw_iff (layers : List Ptr) (e : Edges) (f t : Ptr) :
    (∃ m, addArc layers e f t = .throw m) ↔ f ∉ layers ∨ t ∉ layers := by
  unfold addArc
  cases hf : layers.idxOf? f with
  | none => simp [idxOf?_none.mp hf]
  | some i =>
    cases ht : layers.idxOf? t with
    | none => simp [idxOf?_none.mp ht]
    | some j =>
      have h1 : f ∈ layers := List.mem_of_getElem? (idxOf?_some hf).2.1
      have h2 : t ∈ layers := List.mem_of_getElem? (idxOf?_some ht).2.1
      simp [h1, h2]

theorem addArc_cases (layers : List Ptr) (e : Edges) (f t : Ptr) :
    (f ∈ layers ∧ t ∈ layers ∧ ∃ i j, layers.idxOf? f = some i ∧ layers.idxOf? t = some j ∧
      addArc layers e f t = .ok (insertEdge i j e)) ∨
    ((f ∉ layers ∨ t ∉ layers) ∧
      addArc layers e f t = .throw "add_arc error: params are not included in nodes") := by
  unfold addArc
  cases hf : layers.idxOf? f with
  | none => right; exact ⟨Or.inl (idxOf?_none.mp hf), rfl⟩
  | some i =>
    cases ht : layers.idxOf? t with
    | none => right; exact ⟨Or.inr (idxOf?_none.mp ht), rfl⟩
    | some j =>
      left
      exact ⟨List.mem_of_getElem? (idxOf?_some hf).2.1, List.mem_of_getElem? (idxOf?_some ht).2.1,
        i, j, rfl, rfl, rfl⟩

end Verif.Graph

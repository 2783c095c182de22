import Verif.Model.Graph
import Mathlib.Logic.Relation
import Mathlib.Data.List.Basic
import Mathlib.Data.List.Nodup
import Mathlib.Data.List.Count

/-
The breadth-first runs.
-/

namespace Verif.Graph

/-- Arcs leaving one layer. -/
def arcsOf (succ : Nat → List Nat) (x : Nat) : List (Nat × Nat) := (succ x).map fun y => (x, y)

theorem visitArc_fold (curr : List Nat) (from_ : Nat) (hf : from_ ∈ curr) (ys : List Nat) :
    ∀ w : Wave, w.next.Nodup →
      (ys.foldl (visitArc curr from_) w).ret = w.ret ++ ys.map (fun y => (from_, y)) ∧
      (∀ x, x ∈ (ys.foldl (visitArc curr from_) w).done ↔ x ∈ w.done ∨ (ys ≠ [] ∧ x = from_)) ∧
      (ys.foldl (visitArc curr from_) w).next.Nodup ∧
      (∀ y, y ∈ (ys.foldl (visitArc curr from_) w).next ↔
        y ∈ w.next ∨ (y ∈ ys ∧ y ∉ curr ∧ y ∉ w.done)) := by
  induction ys with
  | nil => intro w hw; simp [hw]
  | cons y ys ih =>
    intro w hw
    set w1 := visitArc curr from_ w y with hw1
    have hdone : ∀ x, x ∈ w1.done ↔ x ∈ w.done ∨ x = from_ := by
      intro x; simp [hw1, visitArc]
    have hnext : (∀ z, z ∈ w1.next ↔ z ∈ w.next ∨ (z = y ∧ z ∉ curr ∧ z ∉ w.done)) ∧
        w1.next.Nodup := by
      simp only [hw1, visitArc]
      by_cases hc : y ∈ curr
      · simp [hc, hw]
      · by_cases hd : y ∈ w.done
        · simp [hc, hd, hw]
        · have hyf : y ≠ from_ := fun h => hc (h ▸ hf)
          by_cases hn : y ∈ w.next
          · simp [hc, hd, hn, hw]
          · simp only [List.contains_eq_mem, List.mem_append, List.mem_singleton, hc, hd, hyf, hn,
              decide_false, Bool.not_false, Bool.and_true, or_self, if_true]
            constructor
            · intro z
              constructor
              · rintro (h | h)
                · exact Or.inl h
                · subst h; exact Or.inr ⟨rfl, hc, hd⟩
              · rintro (h | ⟨h, _⟩)
                · exact Or.inl h
                · exact Or.inr h
            · rw [List.nodup_append]
              refine ⟨hw, List.nodup_singleton _, ?_⟩
              intro a ha b hb
              rw [List.mem_singleton] at hb
              subst hb
              intro hab
              exact hn (hab ▸ ha)
    obtain ⟨h1, h2, h3, h4⟩ := ih w1 hnext.2
    rw [List.foldl_cons]
    refine ⟨?_, ?_, h3, ?_⟩
    · rw [h1]; simp [hw1, visitArc]
    · intro x
      rw [h2 x, hdone x]
      simp
      tauto
    · intro z
      rw [h4 z, hnext.1 z]
      have hz : z ∉ w1.done ↔ z ∉ w.done ∧ z ≠ from_ := by
        rw [hdone z]; simp
      rw [hz, List.mem_cons]
      constructor
      · rintro ((h | ⟨h, h', h''⟩) | ⟨h, h', h'', _⟩)
        · exact Or.inl h
        · exact Or.inr ⟨Or.inl h, h', h''⟩
        · exact Or.inr ⟨Or.inr h, h', h''⟩
      · rintro (h | ⟨h | h, h', h''⟩)
        · exact Or.inl (Or.inl h)
        · exact Or.inl (Or.inr ⟨h, h', h''⟩)
        · exact Or.inr ⟨h, h', h'', fun e => h' (e ▸ hf)⟩

theorem wave_fold (succ : Nat → List Nat) (curr : List Nat) (xs : List Nat) :
    ∀ w : Wave, w.next.Nodup → (∀ x ∈ xs, x ∈ curr) →
      (xs.foldl (visitLayer succ curr) w).ret = w.ret ++ xs.flatMap (arcsOf succ) ∧
      (∀ x, x ∈ (xs.foldl (visitLayer succ curr) w).done ↔
        x ∈ w.done ∨ (x ∈ xs ∧ succ x ≠ [])) ∧
      (xs.foldl (visitLayer succ curr) w).next.Nodup ∧
      (∀ y, y ∈ (xs.foldl (visitLayer succ curr) w).next ↔
        y ∈ w.next ∨ ((∃ x ∈ xs, y ∈ succ x) ∧ y ∉ curr ∧ y ∉ w.done)) := by
  induction xs with
  | nil => intro w hw _; simp [hw]
  | cons x xs ih =>
    intro w hw hx
    obtain ⟨a1, a2, a3, a4⟩ := visitArc_fold curr x (hx x (by simp)) (succ x) w hw
    obtain ⟨b1, b2, b3, b4⟩ := ih (visitLayer succ curr w x) a3 (fun z hz => hx z (by simp [hz]))
    rw [List.foldl_cons]
    refine ⟨?_, ?_, b3, ?_⟩
    · rw [b1]; unfold visitLayer; rw [a1]; simp [arcsOf]
    · intro z
      rw [b2 z]; unfold visitLayer; rw [a2 z]
      simp only [List.mem_cons]
      constructor
      · rintro ((h | ⟨h, rfl⟩) | ⟨h, h'⟩)
        · exact Or.inl h
        · exact Or.inr ⟨Or.inl rfl, h⟩
        · exact Or.inr ⟨Or.inr h, h'⟩
      · rintro (h | ⟨rfl | h, h'⟩)
        · exact Or.inl (Or.inl h)
        · exact Or.inl (Or.inr ⟨h', rfl⟩)
        · exact Or.inr ⟨h, h'⟩
    · intro z
      have hd : z ∉ (visitLayer succ curr w x).done ↔ z ∉ w.done ∧ ¬ (succ x ≠ [] ∧ z = x) := by
        unfold visitLayer; rw [a2 z]; tauto
      rw [b4 z, hd]
      unfold visitLayer
      rw [a4 z]
      have hxc := hx x (by simp)
      constructor
      · rintro ((h | ⟨h, h', h''⟩) | ⟨⟨u, h1, h2⟩, h', h'', _⟩)
        · exact Or.inl h
        · exact Or.inr ⟨⟨x, by simp, h⟩, h', h''⟩
        · exact Or.inr ⟨⟨u, by simp [h1], h2⟩, h', h''⟩
      · rintro (h | ⟨⟨u, h1, h2⟩, h', h''⟩)
        · exact Or.inl (Or.inl h)
        · rcases List.mem_cons.mp h1 with h3 | h3
          · subst h3; exact Or.inl (Or.inr ⟨h2, h', h''⟩)
          · refine Or.inr ⟨⟨u, h3, h2⟩, h', h'', ?_⟩
            rintro ⟨_, rfl⟩
            exact h' hxc

/-- Reachability from the start layers. -/
def Reach (succ : Nat → List Nat) (start : List Nat) (x : Nat) : Prop :=
  ∃ s ∈ start, Relation.ReflTransGen (fun a b => b ∈ succ a) s x

/-- Invariant of the `while` loop: `E` lists the layers expanded so far. -/
structure RunInv (succ : Nat → List Nat) (start E L : List Nat) (ret : List (Nat × Nat))
    (done : List Nat) : Prop where
  nodup : L.Nodup
  ret : ret = E.flatMap (arcsOf succ)
  done : ∀ x, x ∈ done ↔ x ∈ E ∧ succ x ≠ []
  once : (E.filter fun x => !(succ x).isEmpty).Nodup
  fresh : ∀ x ∈ L, succ x ≠ [] → x ∉ E
  started : ∀ x ∈ start, x ∈ E ∨ x ∈ L
  closed : ∀ x ∈ E, ∀ y ∈ succ x, y ∈ E ∨ y ∈ L
  reach : ∀ x, x ∈ E ∨ x ∈ L → Reach succ start x

theorem runInv_step {succ : Nat → List Nat} {start E L : List Nat} {ret : List (Nat × Nat)}
    {done : List Nat} (h : RunInv succ start E L ret done) :
    RunInv succ start (E ++ L) (wave succ L ret done).next (wave succ L ret done).ret
        (wave succ L ret done).done := by
  obtain ⟨a1, a2, a3, a4⟩ := wave_fold succ L L ⟨ret, [], done⟩ List.nodup_nil (fun _ h => h)
  unfold wave
  refine ⟨a3, ?_, ?_, ?_, ?_, ?_, ?_, ?_⟩
  · rw [a1, h.ret, List.flatMap_append]
  · intro x
    rw [a2 x, h.done x, List.mem_append]
    tauto
  · rw [List.filter_append, List.nodup_append]
    refine ⟨h.once, h.nodup.filter _, ?_⟩
    intro a ha b hb hab
    subst hab
    have h1 := List.mem_filter.mp ha
    have h2 := List.mem_filter.mp hb
    refine h.fresh a h2.1 ?_ h1.1
    intro he
    have := h2.2
    simp [he] at this
  · intro x hx hs hxE
    rw [a4 x] at hx
    rcases hx with hx | ⟨_, h1, h2⟩
    · simp at hx
    · rcases List.mem_append.mp hxE with h3 | h3
      · exact h2 ((h.done x).mpr ⟨h3, hs⟩)
      · exact h1 h3
  · intro x hx
    left
    rw [List.mem_append]
    exact h.started x hx
  · intro x hx y hy
    rcases List.mem_append.mp hx with hx | hx
    · left; rw [List.mem_append]; exact h.closed x hx y hy
    · by_cases hyL : y ∈ L
      · left; rw [List.mem_append]; exact Or.inr hyL
      · by_cases hyd : y ∈ done
        · left; rw [List.mem_append]; exact Or.inl ((h.done y).mp hyd).1
        · right; rw [a4 y]; exact Or.inr ⟨⟨x, hx, hy⟩, hyL, hyd⟩
  · intro x hx
    rcases hx with hx | hx
    · rw [List.mem_append] at hx; exact h.reach x hx
    · rw [a4 x] at hx
      rcases hx with hx | ⟨⟨u, h1, h2⟩, _⟩
      · simp at hx
      · obtain ⟨s, hs, hr⟩ := h.reach u (Or.inr h1)
        exact ⟨s, hs, hr.tail h2⟩

/-- Number of layers with successors that are not yet expanded. -/
def pending (succ : Nat → List Nat) (K E : List Nat) : Nat :=
  (K.filter fun x => !(succ x).isEmpty && !E.contains x).length

theorem pending_lt {succ : Nat → List Nat} {K E L : List Nat} {x : Nat} (hx : x ∈ K) (hL : x ∈ L)
    (hE : x ∉ E) (hs : succ x ≠ []) : pending succ K (E ++ L) < pending succ K E := by
  unfold pending
  rw [← List.countP_eq_length_filter, ← List.countP_eq_length_filter]
  induction K with
  | nil => simp at hx
  | cons k K ih =>
    have mono : List.countP (fun x => !(succ x).isEmpty && !(E ++ L).contains x) K
        ≤ List.countP (fun x => !(succ x).isEmpty && !E.contains x) K := by
      apply List.countP_mono_left
      intro y _ hy
      simp only [Bool.and_eq_true, Bool.not_eq_true', List.contains_eq_mem, decide_eq_false_iff_not,
        List.mem_append, not_or] at hy ⊢
      exact ⟨hy.1, hy.2.1⟩
    rw [List.countP_cons, List.countP_cons]
    by_cases hk : k = x
    · subst hk
      rw [if_neg (by simp [hL]), if_pos (by simp [hE, hs])]
      omega
    · have hxK : x ∈ K := by
        rcases List.mem_cons.mp hx with h | h
        · exact absurd h.symm hk
        · exact h
      have := ih hxK
      by_cases hp : (!(succ k).isEmpty && !(E ++ L).contains k) = true
      · rw [if_pos hp, if_pos (by
          simp only [Bool.and_eq_true, Bool.not_eq_true', List.contains_eq_mem,
            decide_eq_false_iff_not, List.mem_append, not_or] at hp ⊢
          exact ⟨hp.1, hp.2.1⟩)]
        omega
      · rw [if_neg hp]
        omega

theorem runLoop_ends {succ : Nat → List Nat} {start K : List Nat}
    (hK : ∀ x, succ x ≠ [] → x ∈ K) : ∀ (n : Nat) (E L : List Nat) (ret : List (Nat × Nat))
    (done : List Nat), RunInv succ start E L ret done → pending succ K E + 1 < n ∨ (L = []) ∨
      (pending succ K E < n ∧ ∃ x ∈ L, succ x ≠ []) ∨ (0 < n ∧ ∀ x ∈ L, succ x = []) →
    ∃ E', runLoop succ n L ret done = some (E'.flatMap (arcsOf succ)) ∧
      RunInv succ start E' [] (E'.flatMap (arcsOf succ)) (E'.filter fun x => !(succ x).isEmpty) ∧
      ∃ M, E' = E ++ M := by
  intro n
  induction n with
  | zero =>
    intro E L ret done h hn
    cases L with
    | nil =>
      refine ⟨E, ?_, ⟨h.nodup, rfl, ?_, h.once, h.fresh, h.started, h.closed, h.reach⟩, [], by simp⟩
      · rw [← h.ret]; rfl
      · intro x; simp
    | cons l ls => simp at hn
  | succ n ih =>
    intro E L ret done h hn
    cases L with
    | nil =>
      refine ⟨E, ?_, ⟨h.nodup, rfl, ?_, h.once, h.fresh, h.started, h.closed, h.reach⟩, [], by simp⟩
      · rw [← h.ret]; rfl
      · intro x; simp
    | cons l ls =>
      have hstep := runInv_step h
      have hnext : (∀ x ∈ l :: ls, succ x = []) → (wave succ (l :: ls) ret done).next = [] := by
        intro hall
        obtain ⟨_, _, _, a4⟩ := wave_fold succ (l :: ls) (l :: ls) ⟨ret, [], done⟩ List.nodup_nil
          (fun _ h => h)
        rw [List.eq_nil_iff_forall_not_mem]
        intro y hy
        rw [show wave succ (l :: ls) ret done
          = (l :: ls).foldl (visitLayer succ (l :: ls)) ⟨ret, [], done⟩ from rfl, a4 y] at hy
        rcases hy with hy | ⟨⟨x, h1, h2⟩, _⟩
        · simp at hy
        · rw [hall x h1] at h2; simp at h2
      have key := ih (E ++ (l :: ls)) _ _ _ hstep ?_
      · obtain ⟨E', k1, k2, M, k3⟩ := key
        refine ⟨E', ?_, k2, (l :: ls) ++ M, by rw [k3, List.append_assoc]⟩
        rw [← k1]; rfl
      · by_cases hall : ∀ x ∈ l :: ls, succ x = []
        · right; left; exact hnext hall
        · have : ∃ x ∈ l :: ls, succ x ≠ [] := by
            by_contra hc
            apply hall
            intro x hx
            by_contra hne
            exact hc ⟨x, hx, hne⟩
          obtain ⟨x, hx, hs⟩ := this
          have hlt := pending_lt (K := K) (L := l :: ls) (hK x hs) hx (h.fresh x hx hs) hs
          have hpn : pending succ K E < n + 1 := by
            rcases hn with hn | hn | hn | hn
            · omega
            · simp at hn
            · exact hn.1
            · exact absurd (hn.2 x hx) hs
          by_cases hall' : ∀ x ∈ (wave succ (l :: ls) ret done).next, succ x = []
          · by_cases hn0 : n = 0
            · omega
            · right; right; right; exact ⟨by omega, hall'⟩
          · right; right; left
            refine ⟨by omega, ?_⟩
            by_contra hc
            apply hall'
            intro x hx
            by_contra hne
            exact hc ⟨x, hx, hne⟩

theorem runInv_init (succ : Nat → List Nat) (start : List Nat) (hn : start.Nodup) :
    RunInv succ start [] start [] [] := by
  refine ⟨hn, rfl, by simp, by simp, by simp, fun x h => Or.inr h, by simp, ?_⟩
  intro x hx
  rcases hx with hx | hx
  · simp at hx
  · exact ⟨x, hx, Relation.ReflTransGen.refl⟩

theorem mem_arcs (succ : Nat → List Nat) (E : List Nat) (x y : Nat) :
    (x, y) ∈ E.flatMap (arcsOf succ) ↔ x ∈ E ∧ y ∈ succ x := by
  rw [List.mem_flatMap]
  unfold arcsOf
  constructor
  · rintro ⟨z, h1, h2⟩
    rw [List.mem_map] at h2
    obtain ⟨u, h3, h4⟩ := h2
    injection h4 with h5 h6
    subst h5; subst h6
    exact ⟨h1, h3⟩
  · rintro ⟨h1, h2⟩
    exact ⟨x, h1, List.mem_map.mpr ⟨y, h2, rfl⟩⟩

theorem arcs_nodup (succ : Nat → List Nat) (hs : ∀ x, (succ x).Nodup) (E : List Nat)
    (h : (E.filter fun x => !(succ x).isEmpty).Nodup) : (E.flatMap (arcsOf succ)).Nodup := by
  induction E with
  | nil => simp
  | cons x E ih =>
    rw [List.flatMap_cons, List.nodup_append]
    by_cases hx : succ x = []
    · refine ⟨by simp [arcsOf, hx], ih ?_, ?_⟩
      · rwa [List.filter_cons, if_neg (by simp [hx])] at h
      · intro a ha; simp [arcsOf, hx] at ha
    · rw [List.filter_cons, if_pos (by simp [hx]), List.nodup_cons] at h
      refine ⟨?_, ih h.2, ?_⟩
      · unfold arcsOf
        exact (hs x).map (fun a b hab => by injection hab)
      · intro a ha b hb hab
        subst hab
        unfold arcsOf at ha
        obtain ⟨y, h1, h2⟩ := List.mem_map.mp ha
        subst h2
        have := (mem_arcs succ E x y).mp hb
        exact h.1 (List.mem_filter.mpr ⟨this.1, by simp [hx]⟩)

theorem reach_closed {succ : Nat → List Nat} {start E : List Nat}
    (h1 : ∀ x ∈ start, x ∈ E) (h2 : ∀ x ∈ E, ∀ y ∈ succ x, y ∈ E) {x : Nat}
    (h : Reach succ start x) : x ∈ E := by
  obtain ⟨s, hs, hr⟩ := h
  induction hr with
  | refl => exact h1 s hs
  | tail _ hbc ih => exact h2 _ ih _ hbc

/-- The loop ends after at most `K.length + 2` iterations, and its result is independent of a larger
bound. -/
theorem run_spec {succ : Nat → List Nat} {start K : List Nat} (hn : start.Nodup)
    (hs : ∀ x, (succ x).Nodup) (hK : ∀ x, succ x ≠ [] → x ∈ K) :
    ∃ r, (∀ fuel, K.length + 2 ≤ fuel → runLoop succ fuel start [] [] = some r) ∧ r.Nodup ∧
      ∀ x y, (x, y) ∈ r ↔ Reach succ start x ∧ y ∈ succ x := by
  have ends : ∀ fuel, K.length + 2 ≤ fuel → ∃ E',
      runLoop succ fuel start [] [] = some (E'.flatMap (arcsOf succ)) ∧
      RunInv succ start E' [] (E'.flatMap (arcsOf succ)) (E'.filter fun x => !(succ x).isEmpty) := by
    intro fuel hf
    obtain ⟨E', h1, h2, _⟩ := runLoop_ends hK fuel [] start [] [] (runInv_init succ start hn) (Or.inl (by
      have : pending succ K [] ≤ K.length := List.length_filter_le _ _
      omega))
    exact ⟨E', h1, h2⟩
  have mono : ∀ (fuel : Nat) (L : List Nat) (ret : List (Nat × Nat)) (done : List Nat) r,
      runLoop succ fuel L ret done = some r → ∀ k, runLoop succ (fuel + k) L ret done = some r := by
    intro fuel
    induction fuel with
    | zero =>
      intro L ret done r h k
      cases L with
      | nil => cases k <;> exact h
      | cons l ls => simp [runLoop] at h
    | succ n ih =>
      intro L ret done r h k
      cases L with
      | nil => rw [show n + 1 + k = (n + k) + 1 by omega]; exact h
      | cons l ls =>
        rw [show n + 1 + k = (n + k) + 1 by omega]
        exact ih _ _ _ _ h k
  obtain ⟨E, h1, h2⟩ := ends (K.length + 2) (Nat.le_refl _)
  refine ⟨E.flatMap (arcsOf succ), ?_, arcs_nodup succ hs E h2.once, ?_⟩
  · intro fuel hf
    have := mono _ _ _ _ _ h1 (fuel - (K.length + 2))
    rwa [show K.length + 2 + (fuel - (K.length + 2)) = fuel by omega] at this
  · intro x y
    rw [mem_arcs]
    constructor
    · rintro ⟨hx, hy⟩
      exact ⟨h2.reach x (Or.inl hx), hy⟩
    · rintro ⟨hx, hy⟩
      refine ⟨reach_closed (fun z hz => ?_) (fun z hz w hw => ?_) hx, hy⟩
      · rcases h2.started z hz with h | h
        · exact h
        · simp at h
      · rcases h2.closed z hz w hw with h | h
        · exact h
        · simp at h

theorem runLoop_sorted {succ : Nat → List Nat} {start : List Nat} (level : Nat → Nat)
    (hlev : ∀ x, Reach succ start x → ∀ y ∈ succ x, level y = level x + 1) :
    ∀ (n : Nat) (E L : List Nat) (ret : List (Nat × Nat)) (done : List Nat) (k : Nat)
      (r : List (Nat × Nat)), RunInv succ start E L ret done → (∀ x ∈ L, level x = k) →
      ret.Pairwise (fun a b => level a.1 ≤ level b.1) → (∀ a ∈ ret, level a.1 ≤ k) →
      runLoop succ n L ret done = some r → r.Pairwise (fun a b => level a.1 ≤ level b.1) := by
  intro n
  induction n with
  | zero =>
    intro E L ret done k r h hL hp hk hr
    cases L with
    | nil => simp [runLoop] at hr; subst hr; exact hp
    | cons l ls => simp [runLoop] at hr
  | succ n ih =>
    intro E L ret done k r h hL hp hk hr
    cases L with
    | nil => simp [runLoop] at hr; subst hr; exact hp
    | cons l ls =>
      have hstep := runInv_step h
      obtain ⟨a1, _, _, a4⟩ := wave_fold succ (l :: ls) (l :: ls) ⟨ret, [], done⟩ List.nodup_nil
        (fun _ h => h)
      have hret : (wave succ (l :: ls) ret done).ret = ret ++ (l :: ls).flatMap (arcsOf succ) := a1
      have hnew : ∀ a ∈ (l :: ls).flatMap (arcsOf succ), level a.1 = k := by
        rintro ⟨x, y⟩ ha
        exact hL x ((mem_arcs succ _ x y).mp ha).1
      refine ih _ _ _ _ (k + 1) r hstep ?_ ?_ ?_ hr
      · intro y hy
        rw [show wave succ (l :: ls) ret done
          = (l :: ls).foldl (visitLayer succ (l :: ls)) ⟨ret, [], done⟩ from rfl, a4 y] at hy
        rcases hy with hy | ⟨⟨x, h1, h2⟩, _⟩
        · simp at hy
        · rw [hlev x (h.reach x (Or.inr h1)) y h2, hL x h1]
      · rw [hret, List.pairwise_append]
        refine ⟨hp, ?_, ?_⟩
        · rw [List.pairwise_iff_forall_sublist]
          intro a b hab
          have ha := hnew a (hab.subset (by simp))
          have hb := hnew b (hab.subset (by simp))
          omega
        · intro a ha b hb
          have := hk a ha
          have := hnew b hb
          omega
      · intro a ha
        rw [hret, List.mem_append] at ha
        rcases ha with ha | ha
        · have := hk a ha; omega
        · have := hnew a ha; omega

end Verif.Graph

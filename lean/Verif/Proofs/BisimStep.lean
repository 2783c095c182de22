import Verif.Proofs.Bisim

/-!
A training step does not depend on what earlier calls left in the buffers.
-/

namespace Verif.Net
open Verif.Spec Verif.Graph

noncomputable section

theorem simple_of_core {a b : AnyLayer} (h : core a = core b) (hs : Simple a) : Simple b := by
  cases a <;> cases b <;> simp only [core, reduceCtorEq] at h <;> first | exact hs.elim | trivial

theorem nonRec_of_core {a b : AnyLayer} (h : core a = core b) (hs : NonRec a) : NonRec b := by
  cases a <;> cases b <;> simp only [core, reduceCtorEq] at h <;> first | exact hs.elim | trivial

theorem extra_setLastInput (a : AnyLayer) (v : List ℝ) : extra (a.setLastInput v) = extra a := by
  cases a <;> rfl

theorem ess_setLastInput (a : AnyLayer) (v : List ℝ) : Ess a (a.setLastInput v) :=
  ⟨(core_setLastInput _ _).symm, (extra_setLastInput _ _).symm, by cases a <;> rfl⟩

theorem extra_loss_forward {f : LossFn} {l l' : Loss.Layer} {v : List ℝ} {e : Option String}
    (h : f.forward l v = .ok (l', e)) : extra (.loss f l') = extra (.loss f l) := by
  cases f with
  | mse =>
    have h : Loss.mseForward l v = _ := h
    unfold Loss.mseForward at h
    split at h
    · cases h; rfl
    · obtain ⟨loss, h1, h2⟩ := Exec.bind_eq_ok h
      dsimp only at h2
      split at h2 <;> cases h2 <;> rfl
  | cce =>
    have h : Loss.cceForward l v = _ := h
    unfold Loss.cceForward at h
    split at h
    · cases h; rfl
    · obtain ⟨loss, h1, h2⟩ := Exec.bind_eq_ok h
      dsimp only at h2
      obtain ⟨mx, h3, h4⟩ := Exec.bind_eq_ok h2
      split at h4
      · split at h4 <;> cases h4 <;> rfl
      · cases h4; rfl
      · cases h4

theorem extra_forward {a a' : AnyLayer} {v : List ℝ} {e : Option String} (h : a.forward v = .ok (a', e)) :
    extra a' = extra a := by
  cases a with
  | dense l =>
    rcases keep_ok h with rfl | ⟨l', h1, rfl, _⟩
    · rfl
    · obtain ⟨o, h2, h3⟩ := Exec.bind_eq_ok h1
      cases h3; rfl
  | conv l =>
    rcases keep_ok h with rfl | ⟨l', h1, rfl, _⟩
    · rfl
    · obtain ⟨o, h2, h3⟩ := Exec.bind_eq_ok h1
      cases h3; rfl
  | maxPool l =>
    rcases keep_ok h with rfl | ⟨l', h1, rfl, _⟩
    · rfl
    · obtain ⟨o, h2, h3⟩ := Exec.bind_eq_ok h1
      cases h3; rfl
  | avgPool l =>
    rcases keep_ok h with rfl | ⟨l', h1, rfl, _⟩
    · rfl
    · obtain ⟨o, h2, h3⟩ := Exec.bind_eq_ok h1
      cases h3; rfl
  | act f l =>
    rcases keep_ok h with rfl | ⟨l', h1, rfl, _⟩
    · rfl
    · cases f with
      | linear => cases h1; rfl
      | _ =>
        obtain ⟨o, h2, h3⟩ := Exec.bind_eq_ok h1
        cases h3; rfl
  | dropout mx raw l => cases h; rfl
  | rnn f f1 l =>
    rcases keep_ok h with rfl | ⟨l', h1, rfl, _⟩
    · rfl
    · obtain ⟨o, h2, h3⟩ := Exec.bind_eq_ok h1
      cases h3; rfl
  | loss f l =>
    obtain ⟨r, h1, h2⟩ := Exec.bind_eq_ok h
    cases h2
    exact extra_loss_forward h1

/-! ### States during a step -/

/-- Two states of `step` that differ at most in input gradients, in scores, and in the buffers of the
layers outside `V`. -/
structure StRel (V : Nat → Prop) (st1 st2 : Steps) : Prop where
  length : st1.layers.length = st2.layers.length
  same : st1.from_ = st2.from_
  fit : ∀ (i : Nat) (a : AnyLayer), st1.layers[i]? = some a → GradFit a ∧ NonRec a
  ess : ∀ (i : Nat) (a b : AnyLayer), st1.layers[i]? = some a → st2.layers[i]? = some b → Ess a b
  seen : ∀ (i : Nat) (a b : AnyLayer), V i → st1.layers[i]? = some a → st2.layers[i]? = some b → blank a = blank b
  src : ∀ i j : Nat, st1.from_[i]? = some (some (.output j)) → V j

/-- The layer at `u` has the same input gradient in both. -/
def GradEq (u : Nat) (st1 st2 : Steps) : Prop :=
  ∀ a b : AnyLayer, st1.layers[u]? = some a → st2.layers[u]? = some b → a.lastInputGradient = b.lastInputGradient

theorem rd_rel {as bs : List AnyLayer} (h : as.length = bs.length) (i : Nat) :
    ERel (fun a b => as[i]? = some a ∧ bs[i]? = some b) (rd as i) (rd bs i) := by
  by_cases hi : i < as.length
  · rw [rd_of_some (List.getElem?_eq_getElem hi), rd_of_some (List.getElem?_eq_getElem (h ▸ hi))]
    exact ⟨List.getElem?_eq_getElem hi, List.getElem?_eq_getElem (h ▸ hi)⟩
  · have e1 : as[i]? = none := List.getElem?_eq_none (by omega)
    have e2 : bs[i]? = none := List.getElem?_eq_none (by omega)
    unfold rd
    rw [e1, e2]
    trivial

theorem eq_of_rel {α : Type} {r1 r2 : Exec α} (h : ERel (fun a b => a = b) r1 r2) : r1 = r2 := by
  cases r1 <;> cases r2 <;> first | exact h.elim | exact congrArg _ h | rfl

theorem value_rel {V : Nat → Prop} {st1 st2 : Steps} (h : StRel V st1 st2) {s : Source}
    (hs : ∀ j, s = .output j → V j) (x : List ℝ) : value st1.layers x s = value st2.layers x s := by
  cases s with
  | external => rfl
  | output j =>
    refine eq_of_rel ((rd_rel h.length j).bind ?_)
    rintro a b ⟨h1, h2⟩
    have := h.seen j a b (hs j rfl) h1 h2
    rw [← lastOutput_blank a, ← lastOutput_blank b, this]
    exact ERel.refl (fun _ => rfl) _

theorem StRel.set {V : Nat → Prop} {st1 st2 : Steps} (h : StRel V st1 st2) {i : Nat} {a b : AnyLayer}
    (hb : blank a = blank b) (hf : GradFit a) (hs : NonRec a) {F : List (Option Source)}
    (hF : ∀ k j : Nat, F[k]? = some (some (.output j)) → V j ∨ j = i) :
    StRel (fun j => V j ∨ j = i) ⟨st1.layers.set i a, F⟩ ⟨st2.layers.set i b, F⟩ := by
  have key : ∀ (k : Nat) (c : AnyLayer) (ls : List AnyLayer) (a : AnyLayer), (ls.set i a)[k]? = some c →
      (k = i ∧ c = a) ∨ (k ≠ i ∧ ls[k]? = some c) := by
    intro k c ls a hk
    by_cases e : i = k
    · subst e
      rw [List.getElem?_set_self'] at hk
      cases hl : ls[i]? with
      | none => rw [hl] at hk; cases hk
      | some z => rw [hl] at hk; cases hk; exact Or.inl ⟨rfl, rfl⟩
    · rw [List.getElem?_set_ne e] at hk
      exact Or.inr ⟨Ne.symm e, hk⟩
  refine ⟨by simpa using h.length, rfl, ?_, ?_, ?_, hF⟩
  · intro k c hk
    rcases key k c _ _ hk with ⟨_, rfl⟩ | ⟨_, hk⟩
    · exact ⟨hf, hs⟩
    · exact h.fit k c hk
  · intro k c d hk hk'
    rcases key k c _ _ hk with ⟨e, rfl⟩ | ⟨e, hk⟩ <;> rcases key k d _ _ hk' with ⟨e', rfl⟩ | ⟨e', hk'⟩
    · exact ess_of_blank hb
    · exact absurd e e'
    · exact absurd e' e
    · exact h.ess k c d hk hk'
  · intro k c d hV hk hk'
    rcases key k c _ _ hk with ⟨e, rfl⟩ | ⟨e, hk⟩ <;> rcases key k d _ _ hk' with ⟨e', rfl⟩ | ⟨e', hk'⟩
    · exact hb
    · exact absurd e e'
    · exact absurd e' e
    · exact h.seen k c d (hV.resolve_right e) hk hk'

theorem StRel.congr {V V' : Nat → Prop} {st1 st2 : Steps} (h : StRel V st1 st2) (hV : ∀ j, V j ↔ V' j) :
    StRel V' st1 st2 :=
  ⟨h.length, h.same, h.fit, h.ess, fun i a b hi => h.seen i a b ((hV i).mpr hi), fun i j e => (hV j).mp (h.src i j e)⟩

/-! ### Backwards -/

theorem follow_rel {V : Nat → Prop} {st1 st2 : Steps} (h : StRel V st1 st2) (x : List ℝ) (i : Nat) {a b : AnyLayer}
    (hb : blank a = blank b) (hf : GradFit a) (hs : NonRec a) :
    ERel (fun a' b' => blank a' = blank b' ∧ GradFit a' ∧ NonRec a') (follow x st1 i a) (follow x st2 i b) := by
  unfold follow
  rw [← h.same]
  cases e : st1.from_[i]? with
  | none => exact ⟨hb, hf, hs⟩
  | some o =>
    cases o with
    | none => exact ⟨hb, hf, hs⟩
    | some s =>
      dsimp only
      rw [value_rel h (s := s) (by rintro j rfl; exact h.src i j e) x]
      refine (ERel.refl (Q := fun a b => a = b) (fun _ => rfl) _).bind ?_
      rintro v _ rfl
      exact ⟨blank_setLastInput hb v, gradFit_of_ess (ess_setLastInput a v) hf,
        nonRec_of_core (core_setLastInput a v).symm hs⟩

theorem ERel.ok_left {α β : Type} {Q : α → β → Prop} {r1 : Exec α} {r2 : Exec β} (h : ERel Q r1 r2) :
    ERel (fun a b => Q a b ∧ r1 = .ok a ∧ r2 = .ok b) r1 r2 := by
  cases r1 <;> cases r2 <;> first | exact h.elim | exact h | exact ⟨h, rfl, rfl⟩

theorem backwardAt_rel {V : Nat → Prop} {st1 st2 : Steps} (h : StRel V st1 st2) (x : List ℝ) {i : Nat} (hi : V i)
    (g : List ℝ) : ERel (fun r1 r2 => r1.2 = r2.2 ∧ StRel V r1.1 r2.1 ∧ (r1.2 = none → GradEq i r1.1 r2.1))
      (backwardAt x st1 i g) (backwardAt x st2 i g) := by
  unfold backwardAt
  refine (rd_rel h.length i).bind ?_
  rintro a b ⟨h1, h2⟩
  refine (follow_rel h x i (h.seen i a b hi h1 h2) (h.fit i a h1).1 (h.fit i a h1).2).bind ?_
  rintro a' b' ⟨h3, h4, h5⟩
  refine (ERel.ok_left (backward_rel h3 h5 h4 g)).bind ?_
  rintro ⟨a2, e1⟩ ⟨b2, e2⟩ ⟨⟨h6, h7, h8⟩, h9, _⟩
  refine ⟨h7, ?_, ?_⟩
  · have := (h.set (i := i) (F := st1.from_) h6 (gradFit_backward h4 h9)
      (nonRec_of_core (core_backward h9).symm h5) fun k j e => Or.inl (h.src k j e)).congr (V' := V)
        (fun j => ⟨fun e => e.elim id (fun e => e ▸ hi), Or.inl⟩)
    have e : st2.from_ = st1.from_ := h.same.symm
    show StRel V ⟨_, st1.from_⟩ ⟨_, st2.from_⟩
    rw [e]
    exact this
  · intro e c d hc hd
    have hc : (st1.layers.set i a2)[i]? = some c := hc
    have hd : (st2.layers.set i b2)[i]? = some d := hd
    rw [List.getElem?_set_self', h1] at hc
    rw [List.getElem?_set_self', h2] at hd
    cases hc; cases hd
    exact h8 e

theorem back_rel {V : Nat → Prop} (x : List ℝ) : ∀ (l : List Nat) (u : Nat) (st1 st2 : Steps), StRel V st1 st2 →
    (∀ i ∈ l, V i) → GradEq u st1 st2 →
    ERel (fun r1 r2 => r1.2 = r2.2 ∧ StRel V r1.1 r2.1) (each (backArcAt x) ((u :: l).zip l) st1)
      (each (backArcAt x) ((u :: l).zip l) st2) := by
  intro l
  induction l with
  | nil => intro u st1 st2 h _ _; exact ⟨rfl, h⟩
  | cons i l ih =>
    intro u st1 st2 h hl hg
    show ERel _ (backArcAt x st1 (u, i) >>= _) (backArcAt x st2 (u, i) >>= _)
    have key : ERel (fun r1 r2 => r1.2 = r2.2 ∧ StRel V r1.1 r2.1 ∧ (r1.2 = none → GradEq i r1.1 r2.1))
        (backArcAt x st1 (u, i)) (backArcAt x st2 (u, i)) := by
      unfold backArcAt
      refine (rd_rel h.length u).bind ?_
      rintro a b ⟨h1, h2⟩
      rw [hg a b h1 h2]
      exact backwardAt_rel h x (hl i (by simp)) _
    refine key.bind ?_
    rintro ⟨s1, e1⟩ ⟨s2, e2⟩ ⟨⟨⟩, h2, h3⟩
    cases e1 with
    | none => exact ih i s1 s2 h2 (fun i hi => hl i (by simp [hi])) (h3 rfl)
    | some m => exact ⟨rfl, h2⟩

/-! ### Forwards -/

/-- The calls along a path. -/
def pathArcs (s : Source) : List Nat → List (Source × Nat)
  | [] => []
  | i :: is => (s, i) :: pathArcs (.output i) is

/-- Where the output of the path is. -/
def pathEnd (s : Source) : List Nat → Source
  | [] => s
  | i :: is => pathEnd (.output i) is

theorem pathArcs_zip : ∀ (l : List Nat) (i : Nat),
    ((i :: l).zip l).map (fun a => (Source.output a.1, a.2)) = pathArcs (.output i) l := by
  intro l
  induction l with
  | nil => intro i; rfl
  | cons j l ih =>
    intro i
    exact congrArg (List.cons _) (ih j)

theorem pathArcs_append (q : Nat) : ∀ (l : List Nat) (s : Source),
    pathArcs s (l ++ [q]) = pathArcs s l ++ [(pathEnd s l, q)] := by
  intro l
  induction l with
  | nil => intro s; rfl
  | cons j l ih => intro s; exact congrArg (List.cons _) (ih _)

theorem pathEnd_mem : ∀ (l : List Nat) (s : Source) (j : Nat), pathEnd s l = .output j → s = .output j ∨ j ∈ l := by
  intro l
  induction l with
  | nil => intro s j h; exact Or.inl h
  | cons i l ih =>
    intro s j h
    rcases ih _ _ h with h | h
    · cases h; exact Or.inr (by simp)
    · exact Or.inr (List.mem_cons_of_mem _ h)

theorem StRel.trainAt {V : Nat → Prop} {st1 st2 : Steps} (h : StRel V st1 st2) {s : Source}
    (hs : ∀ j, s = .output j → V j) {x v : List ℝ} (hv : value st1.layers x s = .ok v) {i : Nat} {a b : AnyLayer}
    (ha : st1.layers[i]? = some a) (hb : st2.layers[i]? = some b)
    {Q : AnyLayer × Option String → AnyLayer × Option String → Prop}
    (hr : ERel Q (a.trainingForward v) (b.trainingForward v))
    (hQ : ∀ r1 r2, Q r1 r2 → blank r1.1 = blank r2.1 ∧ GradFit r1.1 ∧ NonRec r1.1) :
    ERel (fun r1 r2 => ∃ u1 u2, Q u1 u2 ∧ r1.2 = u1.2 ∧ r2.2 = u2.2 ∧
      r1.1 = ⟨st1.layers.set i u1.1, st1.from_.set i (some s)⟩ ∧
      r2.1 = ⟨st2.layers.set i u2.1, st1.from_.set i (some s)⟩ ∧
      StRel (fun j => V j ∨ j = i) r1.1 r2.1) (trainAt x st1 (s, i)) (trainAt x st2 (s, i)) := by
  unfold Net.trainAt
  dsimp only
  rw [← value_rel h hs x, hv]
  dsimp only
  rw [rd_of_some ha, rd_of_some hb, Exec.bind_ok, Exec.bind_ok, ← h.same]
  refine hr.bind ?_
  intro u1 u2 hu
  obtain ⟨q1, q2, q3⟩ := hQ u1 u2 hu
  refine ⟨u1, u2, hu, rfl, rfl, rfl, rfl, h.set q1 q2 q3 ?_⟩
  intro k j e
  by_cases hk : i = k
  · subst hk
    rw [List.getElem?_set_self'] at e
    cases hf : st1.from_[i]? with
    | none => rw [hf] at e; cases e
    | some o => rw [hf] at e; cases e; exact Or.inl (hs j rfl)
  · rw [List.getElem?_set_ne hk] at e
    exact Or.inl (h.src k j e)

theorem forward_rel (x : List ℝ) : ∀ (is : List Nat) (s : Source) (n m : Nat) (ks : List AnyLayer) (V : Nat → Prop)
    (st1 st2 : Steps) (v : List ℝ), PassAll n m ks → is.map (fun i => st1.layers[i]?) = ks.map some → is.Nodup →
    v.length = n → value st1.layers x s = .ok v → (∀ j, s = .output j → V j) → StRel V st1 st2 →
    ∃ st1' st2' y, each (trainAt x) (pathArcs s is) st1 = .ok (st1', none) ∧
      each (trainAt x) (pathArcs s is) st2 = .ok (st2', none) ∧ StRel (fun j => V j ∨ j ∈ is) st1' st2' ∧
      value st1'.layers x (pathEnd s is) = .ok y ∧ y.length = m ∧
      ∀ i, i ∉ is → st1'.layers[i]? = st1.layers[i]? ∧ st2'.layers[i]? = st2.layers[i]? := by
  intro is
  induction is with
  | nil =>
    intro s n m ks V st1 st2 v hm hk _ hv hval _ h
    have : ks = [] := by simpa using hk.symm
    subst this
    cases hm
    exact ⟨st1, st2, v, rfl, rfl, h.congr (by simp), hval, hv, fun _ _ => ⟨rfl, rfl⟩⟩
  | cons i is ih =>
    intro s n m ks V st1 st2 v hm hk hn hv hval hs h
    cases hm with
    | nil => cases hk
    | @cons _ k _ l ls hml hrest =>
    simp only [List.map_cons, List.cons.injEq] at hk
    obtain ⟨hl, hk⟩ := hk
    have hlt : i < st1.layers.length := (List.getElem?_eq_some_iff.mp hl).1
    obtain ⟨b, hb⟩ : ∃ b, st2.layers[i]? = some b := ⟨_, List.getElem?_eq_getElem (h.length ▸ hlt)⟩
    obtain ⟨l', b', y, f1, f2, f3, f4, f5, f6, f7, f8⟩ := train_forward_rel (h.ess i l b hl hb) hml
      (h.fit i l hl).1 hv
    have key := h.trainAt (x := x) hs hval hl hb (Q := fun r1 r2 => r1 = (l', none) ∧ r2 = (b', none))
      (by rw [f1, f2]; exact ⟨rfl, rfl⟩) (by
        rintro _ _ ⟨rfl, rfl⟩
        exact ⟨f3, f7, f8⟩)
    show ∃ st1' st2' y', (Net.trainAt x st1 (s, i) >>= _) = _ ∧ (Net.trainAt x st2 (s, i) >>= _) = _ ∧ _
    revert key
    cases t1 : Net.trainAt x st1 (s, i) with
    | throw _ => cases Net.trainAt x st2 (s, i) <;> intro key <;> first | exact key.elim | skip
                 unfold Net.trainAt at t1; dsimp only at t1; rw [hval] at t1; dsimp only at t1
                 rw [rd_of_some hl, Exec.bind_ok, f1] at t1; cases t1
    | ub => unfold Net.trainAt at t1; dsimp only at t1; rw [hval] at t1; dsimp only at t1
            rw [rd_of_some hl, Exec.bind_ok, f1] at t1; cases t1
    | ok r1 =>
      cases t2 : Net.trainAt x st2 (s, i) with
      | throw _ => intro key; exact key.elim
      | ub => intro key; exact key.elim
      | ok r2 =>
        rintro ⟨_, _, ⟨rfl, rfl⟩, e1, e2, e3, e4, e5⟩
        obtain ⟨r1, e⟩ := r1
        obtain ⟨r2, e'⟩ := r2
        dsimp only at e1 e2 e3 e4 e5
        subst e1 e2
        have hset : ∀ j, j ≠ i → r1.layers[j]? = st1.layers[j]? ∧ r2.layers[j]? = st2.layers[j]? := by
          intro j hj
          rw [e3, e4]
          exact ⟨List.getElem?_set_ne (Ne.symm hj), List.getElem?_set_ne (Ne.symm hj)⟩
        have hi1 : r1.layers[i]? = some l' := by rw [e3]; simp [hlt]
        have hval' : value r1.layers x (.output i) = .ok y := by
          show (rd _ _ >>= _) = _
          rw [rd_of_some hi1, Exec.bind_ok]
          exact f4
        obtain ⟨st1', st2', y', g1, g2, g3, g4, g5, g6⟩ := ih (.output i) k m ls (fun j => V j ∨ j = i) r1 r2 y hrest
          (by
            rw [← hk]
            refine List.map_congr_left fun j hj => ?_
            exact (hset j (by rintro rfl; exact (List.nodup_cons.mp hn).1 hj)).1)
          (List.nodup_cons.mp hn).2 f6 hval' (by rintro j ⟨⟩; exact Or.inr rfl) e5
        refine ⟨st1', st2', y', g1, g2, g3.congr (by intro j; simp [or_assoc]), g4, g5, ?_⟩
        intro j hj
        simp only [List.mem_cons, not_or] at hj
        obtain ⟨a1, a2⟩ := g6 j hj.2
        obtain ⟨a3, a4⟩ := hset j hj.1
        exact ⟨a1.trans a3, a2.trans a4⟩

/-! ### The step -/

/-- Two models of the same graph, whose layers differ only in buffers that training overwrites before it
reads them. -/
structure NetRel (p : List Nat) (q nin m : Nat) (n1 n2 : Net) : Prop where
  graph : n1.graph = n2.graph
  ess : List.Forall₂ Ess n1.layers n2.layers
  fit : ∀ a ∈ n1.layers, GradFit a ∧ NonRec a
  path : ∃ ks, p.map (fun i => n1.layers[i]?) = ks.map some ∧ PassAll nin m ks
  loss : ∃ f l, n1.layers[q]? = some (.loss f l)

theorem NetRel.getElem? {p : List Nat} {q nin m : Nat} {n1 n2 : Net} (h : NetRel p q nin m n1 n2) (i : Nat)
    (a b : AnyLayer) (ha : n1.layers[i]? = some a) (hb : n2.layers[i]? = some b) : Ess a b := by
  obtain ⟨i1, e1⟩ := List.getElem?_eq_some_iff.mp ha
  obtain ⟨i2, e2⟩ := List.getElem?_eq_some_iff.mp hb
  have := (List.forall₂_iff_get.mp h.ess).2 i i1 i2
  simp only [List.get_eq_getElem, e1, e2] at this
  exact this

theorem forall₂_of {as bs : List AnyLayer} (h : as.length = bs.length)
    (h' : ∀ (i : Nat) (a b : AnyLayer), as[i]? = some a → bs[i]? = some b → Ess a b) : List.Forall₂ Ess as bs := by
  rw [List.forall₂_iff_get]
  refine ⟨h, fun i i1 i2 => h' i _ _ ?_ ?_⟩
  · simp
  · simp

theorem core_loss {f : LossFn} {l : Loss.Layer} {b : AnyLayer} (h : core (.loss f l) = core b) :
    ∃ l', b = .loss f l' := by
  cases b <;> simp only [core, reduceCtorEq] at h
  case loss f' l' =>
    simp at h
    exact ⟨l', by rw [h]⟩

theorem loss_target {f : LossFn} {a b : Loss.Layer} (h : Ess (.loss f a) (.loss f b)) (t v : List ℝ) :
    blank ((AnyLayer.loss f (a.setTarget t)).setLastInput v) = blank ((AnyLayer.loss f (b.setTarget t)).setLastInput v) := by
  obtain ⟨_, h2, _⟩ := h
  cases a; cases b
  simp [extra, AnyLayer.paramGrads, AnyLayer.lastInputGradient] at h2
  simp [blank, AnyLayer.setLastInput, Loss.Layer.setTarget, h2]

theorem step_rel {p : List Nat} {q nin m : Nat} {n1 n2 : Net} (h : NetRel p q nin m n1 n2) (hok : Ok n1.graph)
    (hl : Lists n1.graph) (hp : IsTrainingPath n1.graph p q) (hne : p ≠ []) {x : List ℝ} (hx : x.length = nin)
    (t : List ℝ) :
    ERel (fun r1 r2 => r1.2 = r2.2 ∧ r1.1.graph = n1.graph ∧ r2.1.graph = n1.graph ∧
      List.Forall₂ Ess r1.1.layers r2.1.layers ∧ ∀ a ∈ r1.1.layers, GradFit a ∧ NonRec a) (n1.step x t) (n2.step x t) := by
  obtain ⟨a, rest, rfl⟩ := List.exists_cons_of_ne_nil hne
  obtain ⟨f1, f2, f3, f4⟩ := training_facts hok hl hp
  obtain ⟨f, L, hL⟩ := h.loss
  obtain ⟨ks, hks, hmaps⟩ := h.path
  have hlen : n1.layers.length = n2.layers.length := h.ess.length_eq
  have hqlt : q < n1.layers.length := (List.getElem?_eq_some_iff.mp hL).1
  obtain ⟨b, hb⟩ : ∃ b, n2.layers[q]? = some b := ⟨_, List.getElem?_eq_getElem (hlen ▸ hqlt)⟩
  have hE := h.getElem? q _ _ hL hb
  obtain ⟨L', rfl⟩ := core_loss hE.1
  have tgt : ∀ (ls : List AnyLayer) (l : Loss.Layer), ls[q]? = some (.loss f l) →
      each (targetAt t) [q] ls = .ok (ls.set q (.loss f (l.setTarget t)), none) := by
    intro ls l hl
    show (targetAt t ls q >>= fun r => _) = _
    unfold targetAt
    rw [rd_of_some hl, Exec.bind_ok]
    rfl
  have harcs : n1.graph.inputs.map (fun i => (Source.external, i)) ++
      (trainingArcs n1.graph).map (fun a => (Source.output a.1, a.2))
      = pathArcs .external (a :: rest) ++ [(pathEnd .external (a :: rest), q)] := by
    rw [f1, f3, pathArcs_zip, ← pathArcs_append]
    rfl
  -- the states before the forward loop
  have hT : ∀ v, blank ((AnyLayer.loss f (L.setTarget t)).setLastInput v)
      = blank ((AnyLayer.loss f (L'.setTarget t)).setLastInput v) := loss_target hE t
  have essT : Ess (.loss f (L.setTarget t)) (.loss f (L'.setTarget t)) :=
    ((ess_setLastInput _ []).trans (ess_of_blank (hT []))).trans (ess_setLastInput _ []).symm
  have key : ∀ (k : Nat) (c : AnyLayer) (ls : List AnyLayer) (a : AnyLayer), (ls.set q a)[k]? = some c →
      (k = q ∧ c = a) ∨ (k ≠ q ∧ ls[k]? = some c) := by
    intro k c ls a hk
    by_cases e : q = k
    · subst e
      rw [List.getElem?_set_self'] at hk
      cases hl : ls[q]? with
      | none => rw [hl] at hk; cases hk
      | some z => rw [hl] at hk; cases hk; exact Or.inl ⟨rfl, rfl⟩
    · rw [List.getElem?_set_ne e] at hk
      exact Or.inr ⟨Ne.symm e, hk⟩
  have h0 : StRel (fun _ => False)
      ⟨n1.layers.set q (.loss f (L.setTarget t)), List.replicate n1.layers.length none⟩
      ⟨n2.layers.set q (.loss f (L'.setTarget t)), List.replicate n1.layers.length none⟩ := by
    refine ⟨by simpa using hlen, rfl, ?_, ?_, fun _ _ _ e => e.elim, ?_⟩
    · intro k c hk
      rcases key k c _ _ hk with ⟨_, rfl⟩ | ⟨_, hk⟩
      · exact ⟨trivial, trivial⟩
      · exact h.fit c (List.mem_of_getElem? hk)
    · intro k c d hk hk'
      rcases key k c _ _ hk with ⟨e, rfl⟩ | ⟨e, hk⟩ <;> rcases key k d _ _ hk' with ⟨e', rfl⟩ | ⟨e', hk'⟩
      · exact essT
      · exact absurd e e'
      · exact absurd e' e
      · exact h.getElem? k c d hk hk'
    · intro i j e
      rw [List.getElem?_replicate] at e
      split at e <;> cases e
  obtain ⟨st1, st2, y, s1, s2, s3, s4, s5, s6⟩ := forward_rel x (a :: rest) .external nin m ks _ _ _ x hmaps
    (by
      rw [← hks]
      refine List.map_congr_left fun i hi => ?_
      exact List.getElem?_set_ne (by rintro rfl; exact f2 hi))
    hp.path.nodup hx rfl (by rintro j ⟨⟩) h0
  obtain ⟨q1, q2⟩ := s6 q f2
  have q1 : st1.layers[q]? = some (.loss f (L.setTarget t)) := by rw [q1]; simp [hqlt]
  have q2 : st2.layers[q]? = some (.loss f (L'.setTarget t)) := by rw [q2]; simp [hlen ▸ hqlt]
  have hend : ∀ j, pathEnd .external (a :: rest) = .output j → False ∨ j ∈ a :: rest := by
    intro j e
    rcases pathEnd_mem _ _ _ e with e | e
    · cases e
    · exact Or.inr e
  have hfin : ∀ V (st1 st2 : Steps) (n1' n2' : Net), StRel V st1 st2 → n1' = { n1 with layers := st1.layers } →
      n2' = { n1 with layers := st2.layers } → n1'.graph = n1.graph ∧ n2'.graph = n1.graph ∧
      List.Forall₂ Ess n1'.layers n2'.layers ∧ ∀ a ∈ n1'.layers, GradFit a ∧ NonRec a := by
    rintro V st1 st2 _ _ hst rfl rfl
    refine ⟨rfl, rfl, forall₂_of hst.length hst.ess, fun c hc => ?_⟩
    obtain ⟨k, hk⟩ := List.getElem?_of_mem hc
    exact hst.fit k c hk
  unfold Net.step
  rw [← h.graph, hp.loss, tgt _ _ hL, tgt _ _ hb, next_ok, next_ok, harcs]
  have el : (n2.layers.set q (.loss f (L'.setTarget t))).length = n1.layers.length := by simp [hlen]
  have el' : (n1.layers.set q (.loss f (L.setTarget t))).length = n1.layers.length := by simp
  rw [el, el', each_append _ _ s1, each_append _ _ s2]
  refine ERel.bind (Q := fun r1 r2 : Steps × Option String => r1.2 = r2.2 ∧ ∃ V, StRel V r1.1 r2.1) ?_ ?_
  · have kl := s3.trainAt (x := x) hend s4 q1 q2
      (Q := fun r1 r2 => (blank r1.1 = blank r2.1 ∧ r1.2 = r2.2) ∧ GradFit r1.1 ∧ NonRec r1.1)
      (by
        show ERel _ ((AnyLayer.loss f { L.setTarget t with lastInput := y }).forward y)
          ((AnyLayer.loss f { L'.setTarget t with lastInput := y }).forward y)
        refine (ERel.ok_left (loss_forward_rel (hT y) y)).mono ?_
        rintro u1 u2 ⟨hu, hu1, _⟩
        obtain ⟨w, _, hw⟩ := Exec.bind_eq_ok hu1
        cases hw
        exact ⟨hu, trivial, trivial⟩)
      (fun r1 r2 hr => ⟨hr.1.1, hr.2⟩)
    have k2 : ERel (fun r1 r2 => r1.2 = r2.2 ∧ StRel (fun j => (False ∨ j ∈ a :: rest) ∨ j = q) r1.1 r2.1)
        (each (Net.trainAt x) [(pathEnd .external (a :: rest), q)] st1)
        (each (Net.trainAt x) [(pathEnd .external (a :: rest), q)] st2) := by
      show ERel _ (Net.trainAt x st1 _ >>= _) (Net.trainAt x st2 _ >>= _)
      refine kl.bind ?_
      rintro ⟨r1, e1⟩ ⟨r2, e2⟩ ⟨u1, u2, hu, hu1, hu2, _, _, hst⟩
      dsimp only at hu1 hu2
      have : e1 = e2 := by rw [hu1, hu2]; exact hu.1.2
      subst this
      cases e1 with
      | none => exact ⟨rfl, hst⟩
      | some _ => exact ⟨rfl, hst⟩
    unfold next
    refine k2.bind ?_
    rintro ⟨r1, e1⟩ ⟨r2, e2⟩ ⟨e, hst⟩
    cases e
    cases e1 with
    | some msg => exact ⟨rfl, _, hst⟩
    | none =>
      dsimp only
      have k3 : ERel (fun u1 u2 => u1.2 = u2.2 ∧ StRel (fun j => (False ∨ j ∈ a :: rest) ∨ j = q) u1.1 u2.1 ∧
          (u1.2 = none → GradEq q u1.1 u2.1))
          (each (fun st i => backwardAt x st i []) [q] r1) (each (fun st i => backwardAt x st i []) [q] r2) := by
        show ERel _ (backwardAt x r1 q [] >>= _) (backwardAt x r2 q [] >>= _)
        refine (backwardAt_rel hst x (Or.inr rfl) []).bind ?_
        rintro ⟨w1, e1⟩ ⟨w2, e2⟩ ⟨e, hw1, hw2⟩
        cases e
        cases e1 with
        | none => exact ⟨rfl, hw1, hw2⟩
        | some _ => exact ⟨rfl, hw1, hw2⟩
      refine k3.bind ?_
      rintro ⟨w1, e1⟩ ⟨w2, e2⟩ ⟨e, hw1, hw2⟩
      cases e
      cases e1 with
      | some msg => exact ⟨rfl, _, hw1⟩
      | none =>
        dsimp only
        rw [f4]
        refine (back_rel x _ q w1 w2 hw1 ?_ (hw2 rfl)).mono ?_
        · intro i hi
          rw [List.mem_reverse] at hi
          exact Or.inl (Or.inr hi)
        · rintro u1 u2 ⟨h1, h2⟩
          exact ⟨h1, _, h2⟩
  · rintro ⟨r1, e1⟩ ⟨r2, e2⟩ ⟨e, V, hst⟩
    exact ⟨e, hfin V r1 r2 _ _ hst rfl rfl⟩

end

end Verif.Net

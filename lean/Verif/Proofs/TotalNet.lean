import Verif.Proofs.Total
import Verif.Props.Training

/-! Calls on models whose layers have buffers of the right sizes. -/

namespace Verif.Net

open Verif.Spec Verif.Graph

noncomputable section

/-! ### What calls that return keep -/

/-- A property of a layer that no call changes. -/
structure Stable (P : AnyLayer → Prop) : Prop where
  last : ∀ a x, P a → P (a.setLastInput x)
  forward : ∀ a x a' e, P a → a.forward x = .ok (a', e) → P a'
  training : ∀ a x a' e, P a → a.trainingForward x = .ok (a', e) → P a'
  backward : ∀ a g a' e, P a → a.backward g = .ok (a', e) → P a'
  target : ∀ f l t, P (.loss f l) → P (.loss f (l.setTarget t))
  reset : ∀ f l, P (.loss f l) → P (.loss f l.resetScore)

theorem sized_kept (n m : Nat) : Stable (Sized n m) where
  last _ x h := h.setLastInput x
  forward _ _ _ _ h e := h.forward' e
  training _ _ _ _ h e := h.trainingForward' e
  backward _ _ _ _ h e := h.backward' e
  target _ _ _ h := h.1.elim
  reset _ _ h := h.1.elim

/-- A loss layer of the function `lf` for `m` predictions. -/
def LossFit (lf : LossFn) (m : Nat) (a : AnyLayer) : Prop :=
  ∃ l, a = .loss lf l ∧ l.inputSize = m ∧ l.gradients.length = m

theorem lossFit_of {lf : LossFn} {m : Nat} {a b : AnyLayer} (h : LossFit lf m a) (hc : core b = core a)
    (hf : frame b = frame a) : LossFit lf m b := by
  obtain ⟨l, rfl, h1, h2⟩ := h
  cases b <;> simp only [core, reduceCtorEq] at hc
  case loss f l' =>
    cases hc
    simp [frame, extra, AnyLayer.lastInputGradient] at hf
    exact ⟨l', rfl, hf.2.2.1.trans h1, hf.2.1.trans h2⟩

theorem lossFit_kept (lf : LossFn) (m : Nat) : Stable (LossFit lf m) where
  last _ _ h := lossFit_of h (core_setLastInput _ _) (frame_setLastInput _ _)
  forward _ _ _ _ h e := lossFit_of h (core_forward e) (frame_forward e)
  training _ _ _ _ h e := lossFit_of h (core_trainingForward e) (frame_trainingForward e)
  backward _ _ _ _ h e := lossFit_of h (core_backward e) (frame_backward e)
  target _ _ _ h := by
    obtain ⟨l, e, h1, h2⟩ := h
    cases e
    exact ⟨_, rfl, h1, h2⟩
  reset _ _ h := by
    obtain ⟨l, e, h1, h2⟩ := h
    cases e
    exact ⟨_, rfl, h1, h2⟩

/-- Every layer has the property of its position. -/
def AllAt (P : Nat → AnyLayer → Prop) (ls : List AnyLayer) : Prop := ∀ i a, ls[i]? = some a → P i a

theorem AllAt.set {P : Nat → AnyLayer → Prop} {ls : List AnyLayer} (h : AllAt P ls) {i : Nat} {a : AnyLayer}
    (ha : P i a) : AllAt P (ls.set i a) := by
  intro j b hb
  rw [List.getElem?_set] at hb
  split at hb
  · rename_i hj
    subst hj
    split at hb
    · cases hb; exact ha
    · cases hb
  · exact h j b hb

variable {P : Nat → AnyLayer → Prop}

theorem forwardAt_kept (hP : ∀ i, Stable (P i)) {x : List ℝ} {ls ls' : List AnyLayer} {s : Source × Nat}
    {e : Option String} (hl : AllAt P ls) (h : forwardAt x ls s = .ok (ls', e)) : AllAt P ls' := by
  unfold forwardAt at h
  split at h
  · obtain ⟨l, h1, h⟩ := Exec.bind_eq_ok h
    obtain ⟨r, h2, h⟩ := Exec.bind_eq_ok h
    cases h
    exact hl.set ((hP _).forward _ _ _ _ (hl _ _ (rd_eq_ok h1)) h2)
  · cases h; exact hl
  · cases h

theorem predict_kept (hP : ∀ i, Stable (P i)) {n n' : Net} {x : List ℝ} {r : Except String (List ℝ)}
    (hl : AllAt P n.layers) (h : n.predict x = .ok (n', r)) : AllAt P n'.layers := by
  unfold Net.predict at h
  split at h
  · cases h; exact hl
  · obtain ⟨⟨ls, e⟩, h1, h⟩ := Exec.bind_eq_ok h
    have key := each_inv (AllAt P) (fun s b s' e hs h => forwardAt_kept hP hs h) _ _ _ _ hl h1
    cases e with
    | some m => cases h; exact key
    | none =>
      obtain ⟨l, _, h⟩ := Exec.bind_eq_ok h
      dsimp only at h
      split at h
      · cases h; exact key
      · cases h; exact key
      · cases h

theorem trainAt_kept (hP : ∀ i, Stable (P i)) {x : List ℝ} {st st' : Steps} {s : Source × Nat}
    {e : Option String} (hl : AllAt P st.layers) (h : trainAt x st s = .ok (st', e)) : AllAt P st'.layers := by
  unfold trainAt at h
  split at h
  · obtain ⟨l, h1, h⟩ := Exec.bind_eq_ok h
    obtain ⟨r, h2, h⟩ := Exec.bind_eq_ok h
    cases h
    exact hl.set ((hP _).training _ _ _ _ (hl _ _ (rd_eq_ok h1)) h2)
  · cases h; exact hl
  · cases h

theorem backwardAt_kept (hP : ∀ i, Stable (P i)) {x : List ℝ} {st st' : Steps} {i : Nat} {g : List ℝ}
    {e : Option String} (hl : AllAt P st.layers) (h : backwardAt x st i g = .ok (st', e)) : AllAt P st'.layers := by
  unfold backwardAt at h
  obtain ⟨l, h1, h⟩ := Exec.bind_eq_ok h
  obtain ⟨l', h2, h⟩ := Exec.bind_eq_ok h
  obtain ⟨r, h3, h⟩ := Exec.bind_eq_ok h
  cases h
  refine hl.set ((hP _).backward _ _ _ _ ?_ h3)
  have := hl _ _ (rd_eq_ok h1)
  unfold follow at h2
  split at h2
  · obtain ⟨v, _, h2⟩ := Exec.bind_eq_ok h2
    cases h2
    exact (hP _).last _ _ this
  · cases h2; exact this

theorem targetAt_kept (hP : ∀ i, Stable (P i)) {t : List ℝ} {ls ls' : List AnyLayer} {i : Nat} {e : Option String}
    (hl : AllAt P ls) (h : targetAt t ls i = .ok (ls', e)) : AllAt P ls' := by
  unfold targetAt at h
  obtain ⟨l, h1, h⟩ := Exec.bind_eq_ok h
  cases l with
  | loss f l =>
    cases h
    exact hl.set ((hP _).target _ _ _ (hl _ _ (rd_eq_ok h1)))
  | _ => cases h; exact hl

theorem step_kept (hP : ∀ i, Stable (P i)) {n n' : Net} {x t : List ℝ} {e : Option String}
    (hl : AllAt P n.layers) (h : n.step x t = .ok (n', e)) : AllAt P n'.layers := by
  unfold Net.step at h
  obtain ⟨⟨st, e1⟩, h1, h⟩ := Exec.bind_eq_ok h
  cases h
  show AllAt P st.layers
  obtain ⟨ls, _, h2, h3⟩ := next_inv h1
  have k1 : AllAt P ls := each_inv (AllAt P) (fun s b s' e hs h => targetAt_kept hP hs h) _ _ _ _ hl h2
  rcases h3 with rfl | h3
  · exact k1
  obtain ⟨s1, _, h2, h3⟩ := next_inv h3
  have k2 : AllAt P s1.layers :=
    each_inv (fun s : Steps => AllAt P s.layers) (fun s b s' e hs h => trainAt_kept hP hs h) _ _ _ _ k1 h2
  rcases h3 with rfl | h3
  · exact k2
  obtain ⟨s2, _, h2, h3⟩ := next_inv h3
  have k3 : AllAt P s2.layers :=
    each_inv (fun s : Steps => AllAt P s.layers) (fun s b s' e hs h => backwardAt_kept hP hs h) _ _ _ _ k2 h2
  rcases h3 with rfl | h3
  · exact k3
  refine each_inv (fun s : Steps => AllAt P s.layers) (fun s b s' e hs h => ?_) _ _ _ _ k3 h3
  obtain ⟨l, _, h⟩ := Exec.bind_eq_ok h
  exact backwardAt_kept hP hs h

theorem resetScore_kept (hP : ∀ i, Stable (P i)) {n : Net} (hl : AllAt P n.layers) : AllAt P n.resetScore.layers := by
  intro i a ha
  unfold Net.resetScore at ha
  dsimp only at ha
  rw [List.getElem?_mapIdx] at ha
  cases hb : n.layers[i]? with
  | none => rw [hb] at ha; cases ha
  | some b =>
    rw [hb] at ha
    have := hl i b hb
    cases b with
    | loss f l =>
      simp only [Option.map_some, Option.some.injEq] at ha
      subst ha
      split
      · exact (hP i).reset _ _ this
      · exact this
    | _ => cases ha; exact this

/-! ### Traversals return -/

theorem each_total {σ β : Type} {f : σ → β → Exec (σ × Option String)} (P : List β → σ → Prop)
    (step : ∀ b bs s, P (b :: bs) s → ∃ s', f s b = .ok (s', none) ∧ P bs s') :
    ∀ (bs : List β) (s : σ), P bs s → ∃ s', each f bs s = .ok (s', none) ∧ P [] s'
  | [], s, h => ⟨s, rfl, h⟩
  | b :: bs, s, h => by
    obtain ⟨s1, h1, h2⟩ := step b bs s h
    obtain ⟨s2, h3, h4⟩ := each_total P step bs s1 h2
    refine ⟨s2, ?_, h4⟩
    unfold each
    rw [h1, Exec.bind_ok]
    exact h3

/-- Sizes of the layers of a model: inputs and outputs by position, the position `q` of the loss layer of the
function `lf`, if there is one, and the size of the input vectors. -/
structure Plan where
  sizes : Nat → Nat × Nat
  q : Option Nat
  lf : LossFn
  nin : Nat

/-- What holds of the layer at `i`. -/
def Plan.Holds (p : Plan) (i : Nat) (a : AnyLayer) : Prop :=
  if some i = p.q then LossFit p.lf (p.sizes i).1 a else Sized (p.sizes i).1 (p.sizes i).2 a

theorem Plan.kept (p : Plan) (i : Nat) : Stable (p.Holds i) := by
  by_cases h : some i = p.q
  · have : p.Holds i = LossFit p.lf (p.sizes i).1 := by funext a; simp [Plan.Holds, h]
    rw [this]
    exact lossFit_kept _ _
  · have : p.Holds i = Sized (p.sizes i).1 (p.sizes i).2 := by funext a; simp [Plan.Holds, h]
    rw [this]
    exact sized_kept _ _

/-- The source `s` supplies the input of the layer at `i` when the layers in `vis` have been called. -/
def Plan.Feeds (p : Plan) (vis : Nat → Prop) (s : Source) (i : Nat) : Prop :=
  match s with
  | .external => (p.sizes i).1 = p.nin
  | .output j => vis j ∧ some j ≠ p.q ∧ (p.sizes j).2 = (p.sizes i).1

/-- Each call of a traversal finds its input. -/
def Plan.Ordered (p : Plan) (k : Nat) : (Nat → Prop) → List (Source × Nat) → Prop
  | _, [] => True
  | vis, s :: ss => s.2 < k ∧ p.Feeds vis s.1 s.2 ∧ p.Ordered k (fun j => vis j ∨ j = s.2) ss

/-- The layers in `vis` have outputs of the right length. -/
def Plan.Full (p : Plan) (vis : Nat → Prop) (ls : List AnyLayer) : Prop :=
  ∀ j a, vis j → some j ≠ p.q → ls[j]? = some a → Filled (p.sizes j).2 a

theorem value_total {p : Plan} {vis : Nat → Prop} {ls : List AnyLayer} {x : List ℝ} {s : Source} {i : Nat}
    (hf : p.Full vis ls) (hk : ∀ j, vis j → j < ls.length) (hx : x.length = p.nin) (hs : p.Feeds vis s i) :
    ∃ v, value ls x s = .ok v ∧ v.length = (p.sizes i).1 := by
  cases s with
  | external => exact ⟨x, rfl, hx.trans hs.symm⟩
  | output j =>
    obtain ⟨h1, h2, h3⟩ := hs
    obtain ⟨y, h4, h5⟩ := hf j _ h1 h2 (List.getElem?_eq_getElem (hk j h1))
    refine ⟨y, ?_, h5.trans h3⟩
    show (rd ls j >>= fun l => _) = _
    rw [rd_ok (hk j h1), Exec.bind_ok]
    exact h4

theorem Plan.Full.set {p : Plan} {vis : Nat → Prop} {ls : List AnyLayer} (hf : p.Full vis ls) {i : Nat} {a : AnyLayer}
    (ha : some i ≠ p.q → Filled (p.sizes i).2 a) : p.Full (fun j => vis j ∨ j = i) (ls.set i a) := by
  intro j b hv hq hb
  rw [List.getElem?_set] at hb
  split at hb
  · rename_i hj
    subst hj
    split at hb
    · cases hb; exact ha hq
    · cases hb
  · rename_i hj
    exact hf j b (hv.resolve_right fun e => hj e.symm) hq hb

/-! ### Predictions -/

theorem forwardAt_total {p : Plan} {vis : Nat → Prop} {ls : List AnyLayer} {x : List ℝ} {s : Source × Nat}
    (hh : AllAt p.Holds ls) (hf : p.Full vis ls) (hk : ∀ j, vis j → j < ls.length) (hx : x.length = p.nin)
    (hi : s.2 < ls.length) (hq : some s.2 ≠ p.q) (hs : p.Feeds vis s.1 s.2) :
    ∃ ls', forwardAt x ls s = .ok (ls', none) ∧ AllAt p.Holds ls' ∧ ls'.length = ls.length ∧
      p.Full (fun j => vis j ∨ j = s.2) ls' := by
  obtain ⟨v, h1, h2⟩ := value_total hf hk hx hs
  have h3 := hh _ _ (List.getElem?_eq_getElem hi)
  rw [Plan.Holds, if_neg hq] at h3
  obtain ⟨a', h4, h5⟩ := h3.forward h2
  have e : forwardAt x ls s = .ok (ls.set s.2 a', none) := by
    unfold forwardAt
    rw [h1]
    dsimp only
    rw [rd_ok hi, Exec.bind_ok, h4, Exec.bind_ok]
  exact ⟨_, e, forwardAt_kept p.kept hh e, by simp, hf.set fun _ => h5⟩

theorem forwards_total {p : Plan} {x : List ℝ} (hx : x.length = p.nin) {k : Nat} : ∀ (ss : List (Source × Nat))
    (vis : Nat → Prop) (ls : List AnyLayer), ls.length = k → AllAt p.Holds ls → p.Full vis ls → (∀ j, vis j → j < k) →
    p.Ordered k vis ss → (∀ s ∈ ss, some s.2 ≠ p.q) →
    ∃ ls', each (forwardAt x) ss ls = .ok (ls', none) ∧ AllAt p.Holds ls' ∧ ls'.length = k ∧
      p.Full (fun j => vis j ∨ ∃ s ∈ ss, j = s.2) ls'
  | [], vis, ls, hk, hh, hf, hv, ho, hq => ⟨ls, rfl, hh, hk, fun j a hj => hf j a (hj.resolve_right (by simp))⟩
  | s :: ss, vis, ls, hk, hh, hf, hv, ho, hq => by
    subst hk
    obtain ⟨ls1, h1, h2, h3, h4⟩ := forwardAt_total hh hf hv hx ho.1 (hq s (by simp)) ho.2.1
    obtain ⟨ls2, h5, h6, h7, h8⟩ := forwards_total hx ss _ ls1 h3 h2 h4
      (by rintro j (hj | rfl); exacts [hv j hj, ho.1]) ho.2.2 (fun t ht => hq t (by simp [ht]))
    refine ⟨ls2, ?_, h6, h7, ?_⟩
    · unfold each
      rw [h1, Exec.bind_ok]
      exact h5
    · intro j a hj
      apply h8
      rcases hj with hj | ⟨t, ht, rfl⟩
      · exact .inl (.inl hj)
      · rcases List.mem_cons.mp ht with rfl | ht
        · exact .inl (.inr rfl)
        · exact .inr ⟨t, ht, rfl⟩

/-- The traversal of `predict`. -/
def forwardSources (g : DLGraph) : List (Source × Nat) :=
  g.inputs.map (fun i => (Source.external, i)) ++ (forwardArcs g).map (fun a => (Source.output a.1, a.2))

/-- The traversal of `step`. -/
def trainingSources (g : DLGraph) : List (Source × Nat) :=
  g.inputs.map (fun i => (Source.external, i)) ++ (trainingArcs g).map (fun a => (Source.output a.1, a.2))

theorem predict_total {p : Plan} {n : Net} {x : List ℝ} {o : Nat} {os : List Nat} (hh : AllAt p.Holds n.layers)
    (hx : x.length = p.nin) (ho : p.Ordered n.layers.length (fun _ => False) (forwardSources n.graph))
    (hq : ∀ s ∈ forwardSources n.graph, some s.2 ≠ p.q) (hout : n.graph.outputs = o :: os)
    (hov : ∃ s ∈ forwardSources n.graph, o = s.2) :
    ∃ n' y, n.predict x = .ok (n', .ok y) ∧ y.length = (p.sizes o).2 ∧ AllAt p.Holds n'.layers := by
  obtain ⟨ls, h1, h2, h3, h4⟩ := forwards_total hx (forwardSources n.graph) (fun _ => False) n.layers rfl hh
    (fun j a hj => hj.elim) (fun j hj => hj.elim) ho hq
  have hok : o < ls.length := by
    rw [h3]
    obtain ⟨s, hs, rfl⟩ := hov
    clear h1 h2 h3 h4 hq
    revert ho hs
    generalize (fun _ : Nat => False) = vis
    generalize forwardSources n.graph = ss
    intro ho hs
    induction ss generalizing vis with
    | nil => cases hs
    | cons t ss ih =>
      rcases List.mem_cons.mp hs with rfl | hs
      · exact ho.1
      · exact ih _ ho.2.2 hs
  obtain ⟨y, h5, h6⟩ := h4 o _ (.inr hov) (by obtain ⟨s, hs, rfl⟩ := hov; exact hq s hs) (List.getElem?_eq_getElem hok)
  refine ⟨⟨n.graph, ls⟩, y, ?_, h6, h2⟩
  unfold Net.predict
  rw [hout]
  dsimp only
  unfold forwardSources at h1
  rw [h1, Exec.bind_ok]
  dsimp only
  rw [rd_ok hok, Exec.bind_ok, h5]

/-! ### Steps -/

/-- During the forward part of `step`. -/
structure Plan.Running (p : Plan) (vis : Nat → Prop) (t : List ℝ) (k : Nat) (st : Steps) : Prop where
  holds : AllAt p.Holds st.layers
  full : p.Full vis st.layers
  length : st.layers.length = k
  flen : st.from_.length = k
  target : ∀ i f l, some i = p.q → st.layers[i]? = some (.loss f l) → l.target = t
  sources : ∀ j, vis j → j < k ∧ ∃ s, st.from_[j]? = some (some s) ∧ p.Feeds vis s j

theorem Plan.Feeds.mono {p : Plan} {vis vis' : Nat → Prop} (h : ∀ j, vis j → vis' j) {s : Source} {i : Nat}
    (hs : p.Feeds vis s i) : p.Feeds vis' s i := by
  cases s with
  | external => exact hs
  | output j => exact ⟨h j hs.1, hs.2⟩

theorem trainAt_total {p : Plan} {vis : Nat → Prop} {t : List ℝ} {k : Nat} {st : Steps} {x : List ℝ} {s : Source × Nat}
    (hr : p.Running vis t k st) (hx : x.length = p.nin) (hi : s.2 < k)
    (hs : p.Feeds vis s.1 s.2) (ht : ∀ i, some i = p.q → CanScore p.lf (p.sizes i).1 t) :
    ∃ st', trainAt x st s = .ok (st', none) ∧ p.Running (fun j => vis j ∨ j = s.2) t k st' := by
  obtain ⟨v, h1, h2⟩ := value_total hr.full (fun j hj => by rw [hr.length]; exact (hr.sources j hj).1) hx hs
  have hi' : s.2 < st.layers.length := by rw [hr.length]; exact hi
  have h3 := hr.holds _ _ (List.getElem?_eq_getElem hi')
  have key : ∃ a', (st.layers[s.2]).trainingForward v = .ok (a', none) ∧
      (some s.2 ≠ p.q → Filled (p.sizes s.2).2 a') ∧ (some s.2 = p.q → ∀ f l, a' = .loss f l → l.target = t) := by
    by_cases hq : some s.2 = p.q
    · rw [Plan.Holds, if_pos hq] at h3
      obtain ⟨l, h4, h5, h6⟩ := h3
      obtain ⟨L', h7, _, h8, _⟩ := loss_train (ht _ hq) h5 h2
        (hr.target _ _ _ hq (by rw [List.getElem?_eq_getElem hi', h4]))
      rw [h4]
      exact ⟨_, h7, fun h => (h hq).elim, fun _ f l e => by cases e; exact h8⟩
    · rw [Plan.Holds, if_neg hq] at h3
      obtain ⟨a', h4, h5⟩ := h3.trainingForward h2
      exact ⟨a', h4, fun _ => h5, fun h => (hq h).elim⟩
  obtain ⟨a', h4, h5, h6⟩ := key
  have e : trainAt x st s = .ok (⟨st.layers.set s.2 a', st.from_.set s.2 (some s.1)⟩, none) := by
    unfold trainAt
    rw [h1]
    dsimp only
    rw [rd_ok hi', Exec.bind_ok, h4, Exec.bind_ok]
  refine ⟨_, e, trainAt_kept p.kept hr.holds e, hr.full.set h5, by simp [hr.length], by simp [hr.flen], ?_, ?_⟩
  · intro i f l hq hl
    dsimp only at hl
    rw [List.getElem?_set] at hl
    split at hl
    · rename_i hj
      subst hj
      cases hl
      exact h6 hq _ _ rfl
    · exact hr.target i f l hq hl
  · intro j hj
    dsimp only
    by_cases e : s.2 = j
    · subst e
      refine ⟨hi, s.1, ?_, hs.mono fun _ => .inl⟩
      rw [List.getElem?_set_self (by rw [hr.flen]; exact hi)]
    · obtain ⟨g1, s', g2, g3⟩ := hr.sources j (hj.resolve_right fun h => e h.symm)
      refine ⟨g1, s', ?_, g3.mono fun _ => .inl⟩
      rw [List.getElem?_set_ne e]
      exact g2

theorem trains_total {p : Plan} {x t : List ℝ} (hx : x.length = p.nin)
    (ht : ∀ i, some i = p.q → CanScore p.lf (p.sizes i).1 t) {k : Nat} : ∀ (ss : List (Source × Nat))
    (vis : Nat → Prop) (st : Steps), p.Running vis t k st → p.Ordered k vis ss →
    ∃ st', each (trainAt x) ss st = .ok (st', none) ∧ p.Running (fun j => vis j ∨ ∃ s ∈ ss, j = s.2) t k st'
  | [], vis, st, hr, _ => by
    refine ⟨st, rfl, ?_⟩
    have : (fun j => vis j ∨ ∃ s ∈ ([] : List (Source × Nat)), j = s.2) = vis := by funext j; simp
    rw [this]
    exact hr
  | s :: ss, vis, st, hr, ho => by
    obtain ⟨st1, h1, h2⟩ := trainAt_total hr hx ho.1 ho.2.1 ht
    obtain ⟨st2, h3, h4⟩ := trains_total hx ht ss _ st1 h2 ho.2.2
    refine ⟨st2, ?_, ?_⟩
    · unfold each
      rw [h1, Exec.bind_ok]
      exact h3
    · have : (fun j => vis j ∨ ∃ r ∈ s :: ss, j = r.2) = (fun j => (vis j ∨ j = s.2) ∨ ∃ r ∈ ss, j = r.2) := by
        funext j
        simp [or_assoc]
      rw [this]
      exact h4

theorem backwardAt_total {p : Plan} {vis : Nat → Prop} {t : List ℝ} {k : Nat} {st : Steps} {x g : List ℝ} {i : Nat}
    (hr : p.Running vis t k st) (hx : x.length = p.nin) (hi : vis i) (hg : g.length = (p.sizes i).2 ∨ some i = p.q ∧ g = [])
    (ht : ∀ i, some i = p.q → CanScore p.lf (p.sizes i).1 t) :
    ∃ st', backwardAt x st i g = .ok (st', none) ∧ p.Running vis t k st' := by
  obtain ⟨hk, s, h0, hs⟩ := hr.sources i hi
  obtain ⟨v, h1, h2⟩ := value_total hr.full (fun j hj => by rw [hr.length]; exact (hr.sources j hj).1) hx hs
  have hi' : i < st.layers.length := by rw [hr.length]; exact hk
  have hget := List.getElem?_eq_getElem hi'
  have h3 := hr.holds _ _ hget
  have key : ∃ a', ((st.layers[i]).setLastInput v).backward g = .ok (a', none) ∧
      (some i ≠ p.q → Filled (p.sizes i).2 a') ∧ (some i = p.q → ∀ f l, a' = .loss f l → l.target = t) := by
    by_cases hq : some i = p.q
    · rw [Plan.Holds, if_pos hq] at h3
      obtain ⟨l, h4, h5, h6⟩ := h3
      have h7 := hr.target _ _ _ hq (by rw [hget, h4])
      rw [h4]
      exact ⟨_, loss_back (ht _ hq).1 h6 h2 h7, fun h => (h hq).elim, fun _ f l e => by cases e; exact h7⟩
    · rw [Plan.Holds, if_neg hq] at h3
      obtain ⟨a', h4, h5⟩ := backward_returns h3 h2 (hg.resolve_right fun h => hq h.1)
      refine ⟨a', h4, fun _ => ?_, fun h => (hq h).elim⟩
      unfold Filled
      rw [h5]
      exact hr.full i _ hi hq hget
  obtain ⟨a', h4, h5, h6⟩ := key
  have e : backwardAt x st i g = .ok (⟨st.layers.set i a', st.from_⟩, none) := by
    unfold backwardAt
    rw [rd_ok hi', Exec.bind_ok]
    unfold follow
    rw [h0]
    dsimp only
    rw [h1, Exec.bind_ok, Exec.bind_ok, h4, Exec.bind_ok]
  have hvis : (fun j => vis j ∨ j = i) = vis := by
    funext j
    apply propext
    exact ⟨fun h => h.elim id fun e => e ▸ hi, .inl⟩
  refine ⟨_, e, backwardAt_kept p.kept hr.holds e, hvis ▸ hr.full.set h5, by simp [hr.length], hr.flen, ?_, hr.sources⟩
  intro j f l hq hl
  dsimp only at hl
  rw [List.getElem?_set] at hl
  split at hl
  · rename_i hj
    subst hj
    cases hl
    exact h6 hq _ _ rfl
  · exact hr.target j f l hq hl

theorem backArcs_total {p : Plan} {vis : Nat → Prop} {x t : List ℝ} (hx : x.length = p.nin)
    (ht : ∀ i, some i = p.q → CanScore p.lf (p.sizes i).1 t) {k : Nat} : ∀ (as : List (Nat × Nat)) (st : Steps),
    p.Running vis t k st → (∀ a ∈ as, vis a.1 ∧ vis a.2 ∧ (p.sizes a.1).1 = (p.sizes a.2).2) →
    ∃ st', each (backArcAt x) as st = .ok (st', none) ∧ p.Running vis t k st'
  | [], st, hr, _ => ⟨st, rfl, hr⟩
  | a :: as, st, hr, ha => by
    obtain ⟨a1, a2, a3⟩ := ha a (by simp)
    have hi : a.1 < st.layers.length := by rw [hr.length]; exact (hr.sources _ a1).1
    have hlen : (st.layers[a.1]).lastInputGradient.length = (p.sizes a.2).2 := by
      have h := hr.holds _ _ (List.getElem?_eq_getElem hi)
      rw [← a3]
      unfold Plan.Holds at h
      split at h
      · obtain ⟨l, h1, _, h2⟩ := h
        rw [h1]
        exact h2
      · exact h.grad
    obtain ⟨st1, h1, h2⟩ := backwardAt_total hr hx a2 (.inl hlen) ht
    obtain ⟨st2, h3, h4⟩ := backArcs_total hx ht as st1 h2 (fun b hb => ha b (by simp [hb]))
    refine ⟨st2, ?_, h4⟩
    unfold each
    have e : backArcAt x st a = .ok (st1, none) := by
      unfold backArcAt
      rw [rd_ok hi, Exec.bind_ok]
      exact h1
    rw [e, Exec.bind_ok]
    exact h3

/-- What the graph of a model with one loss layer at `q` offers to `step`. -/
structure Plan.Steppable (p : Plan) (k : Nat) (g : DLGraph) (q : Nat) : Prop where
  loss : p.q = some q
  only : g.loss = [q]
  ordered : p.Ordered k (fun _ => False) (trainingSources g)
  reached : ∃ s ∈ trainingSources g, q = s.2
  backward : ∀ a ∈ backwardArcs g, (∃ s ∈ trainingSources g, a.1 = s.2) ∧ (∃ s ∈ trainingSources g, a.2 = s.2) ∧
    (p.sizes a.1).1 = (p.sizes a.2).2

theorem step_total {p : Plan} {n : Net} {q : Nat} {x t : List ℝ} (hp : p.Steppable n.layers.length n.graph q)
    (hh : AllAt p.Holds n.layers) (hq : q < n.layers.length) (hx : x.length = p.nin)
    (ht : CanScore p.lf (p.sizes q).1 t) :
    ∃ n', n.step x t = .ok (n', none) ∧ AllAt p.Holds n'.layers ∧ n'.graph = n.graph ∧
      n'.layers.length = n.layers.length := by
  have ht' : ∀ i, some i = p.q → CanScore p.lf (p.sizes i).1 t := by
    intro i hi
    rw [hp.loss] at hi
    cases hi
    exact ht
  have h0 := hh _ _ (List.getElem?_eq_getElem hq)
  rw [Plan.Holds, if_pos hp.loss.symm] at h0
  obtain ⟨l, e0, _⟩ := h0
  have e1 : each (targetAt t) n.graph.loss n.layers = .ok (n.layers.set q (.loss p.lf (l.setTarget t)), none) := by
    rw [hp.only]
    unfold each
    unfold targetAt
    rw [rd_ok hq, Exec.bind_ok, e0]
    rfl
  have k1 : AllAt p.Holds (n.layers.set q (.loss p.lf (l.setTarget t))) :=
    each_inv (AllAt p.Holds) (fun s b s' e hs h => targetAt_kept p.kept hs h) _ _ _ _ hh e1
  have r1 : p.Running (fun _ => False) t n.layers.length ⟨n.layers.set q (.loss p.lf (l.setTarget t)),
      List.replicate (n.layers.set q (.loss p.lf (l.setTarget t))).length none⟩ := by
    refine ⟨k1, fun j a hj => hj.elim, by simp, by simp, ?_, fun j hj => hj.elim⟩
    intro i f l' hi hl
    rw [hp.loss] at hi
    cases hi
    dsimp only at hl
    rw [List.getElem?_set_self hq] at hl
    cases hl
    rfl
  obtain ⟨st1, e2, r2⟩ := trains_total hx ht' _ _ _ r1 hp.ordered
  obtain ⟨st2, e3, r3⟩ := backwardAt_total r2 hx (.inr hp.reached) (.inr ⟨hp.loss.symm, rfl⟩) ht'
  obtain ⟨st3, e4, r4⟩ := backArcs_total hx ht' (backwardArcs n.graph) st2 r3
    (fun a ha => ⟨.inr (hp.backward a ha).1, .inr (hp.backward a ha).2.1, (hp.backward a ha).2.2⟩)
  refine ⟨⟨n.graph, st3.layers⟩, ?_, r4.holds, rfl, r4.length⟩
  unfold Net.step
  unfold trainingSources at e2
  have e3' : each (fun st i => backwardAt x st i []) n.graph.loss st1 = .ok (st2, none) := by
    rw [hp.only]
    unfold each
    rw [e3]
    rfl
  rw [e1, next_ok, e2, next_ok, e3', next_ok, e4]
  rfl

/-! ### Updates -/

theorem Plan.train {p : Plan} {σ : Type} (opt : σ → ℝ → ℝ → σ × ℝ) (s : σ) {i : Nat} {a : AnyLayer} (h : p.Holds i a) :
    ∃ s' a', a.train opt s = ((s', a'), .ok ()) ∧ p.Holds i a' := by
  unfold Plan.Holds at h ⊢
  split at h
  · rename_i hq
    obtain ⟨l, rfl, h1, h2⟩ := h
    obtain ⟨s', P, G, h3, _⟩ := train_returns opt s (a := .loss p.lf l) ⟨rfl, rfl⟩
    exact ⟨s', _, h3, by rw [if_pos hq]; exact ⟨l, rfl, h1, h2⟩⟩
  · rename_i hq
    obtain ⟨s', a', h1, h2⟩ := h.train opt s
    exact ⟨s', a', h1, by rw [if_neg hq]; exact h2⟩

theorem trainLayers_total {p : Plan} {σ : Type} (opt : σ → ℝ → ℝ → σ × ℝ) : ∀ (ls : List AnyLayer) (s : σ) (k : Nat),
    (∀ i a, ls[i]? = some a → p.Holds (k + i) a) → ∃ s' ls', trainLayers opt s ls = ((s', ls'), .ok ()) ∧
      ls'.length = ls.length ∧ ∀ i a, ls'[i]? = some a → p.Holds (k + i) a
  | [], s, k, h => ⟨s, [], rfl, rfl, h⟩
  | a :: as, s, k, h => by
    obtain ⟨s1, a', h1, h2⟩ := Plan.train opt s (h 0 a rfl)
    obtain ⟨s2, ls', h3, h4, h5⟩ := trainLayers_total opt as s1 (k + 1) (fun i b hb => by
      have := h (i + 1) b hb
      rwa [show k + 1 + i = k + (i + 1) by omega])
    refine ⟨s2, a' :: ls', ?_, by simp [h4], ?_⟩
    · unfold trainLayers
      rw [h1]
      dsimp only
      rw [h3]
    · intro i b hb
      cases i with
      | zero => cases hb; exact h2
      | succ i =>
        have := h5 i b hb
        rwa [show k + (i + 1) = k + 1 + i by omega]

theorem train_total {p : Plan} {σ : Type} (opt : σ → ℝ → ℝ → σ × ℝ) (s : σ) {n : Net} (hh : AllAt p.Holds n.layers) :
    ∃ s' n', n.train opt s = ((s', n'), .ok ()) ∧ AllAt p.Holds n'.layers ∧ n'.graph = n.graph ∧
      n'.layers.length = n.layers.length := by
  obtain ⟨s', ls', h1, h2, h3⟩ := trainLayers_total opt n.layers s 0 (p := p) (fun i a ha => by
    rw [Nat.zero_add]; exact hh i a ha)
  refine ⟨s', ⟨n.graph, ls'⟩, ?_, fun i a ha => by have := h3 i a ha; rwa [Nat.zero_add] at this, rfl, h2⟩
  unfold Net.train
  rw [h1]

/-! ### Fits -/

theorem performAll_total {σ : Type} {o : Training.Ops σ} (P : σ → Prop) : ∀ (cs : List TrainCall) (s : σ),
    (∀ c ∈ cs, ∀ s, P s → ∃ s', Spec.perform o c s = .ok s' ∧ P s') → P s →
    ∃ s', Spec.performAll o cs s = .ok s' ∧ P s'
  | [], s, _, h => ⟨s, rfl, h⟩
  | c :: cs, s, hc, h => by
    obtain ⟨s1, h1, h2⟩ := hc c (by simp) s h
    obtain ⟨s2, h3, h4⟩ := performAll_total P cs s1 (fun d hd => hc d (by simp [hd])) h2
    refine ⟨s2, ?_, h4⟩
    unfold Spec.performAll
    rw [h1, Exec.bind_ok]
    exact h3

theorem sample_of_mem {n b epochs i : Nat} (h : TrainCall.step i ∈ trainCalls n b epochs) : i < n := by
  unfold trainCalls at h
  rw [List.mem_flatten] at h
  obtain ⟨l, h1, h2⟩ := h
  rw [List.eq_of_mem_replicate h1] at h2
  unfold epochCalls at h2
  rw [List.mem_flatMap] at h2
  obtain ⟨k, _, h2⟩ := h2
  simp only [List.mem_cons, reduceCtorEq, List.mem_append, List.mem_map, TrainCall.step.injEq, false_or,
    exists_eq_right, List.not_mem_nil, or_false] at h2
  unfold batchSamples at h2
  exact List.mem_range.mp (List.mem_of_mem_drop (List.mem_of_mem_take h2))

theorem modelFit_total {p : Plan} {g : DLGraph} {k q : Nat} (hp : p.Steppable k g q) (hq : q < k) {τ : Type}
    (opt : τ → ℝ → ℝ → τ × ℝ) (s : τ) {n : Net} (hh : AllAt p.Holds n.layers) (hg : n.graph = g)
    (hk : n.layers.length = k) {d : Data.Dataset ℝ} (hd : Suits p.lf p.nin (p.sizes q).1 d) {fuel epochs b : Nat}
    (hb : 1 ≤ b) (hf : batchCount d.size b ≤ fuel) :
    ∃ r : τ × Net, Training.fit opt d fuel epochs b (s, n) = some (.ok r) ∧ AllAt p.Holds r.2.layers ∧
      r.2.graph = g ∧ r.2.layers.length = k := by
  rw [Props.C37_fit opt d b epochs fuel hb hf]
  obtain ⟨r, h1, h2⟩ := performAll_total (o := Training.modelOps opt d)
    (fun r : τ × Net => AllAt p.Holds r.2.layers ∧ r.2.graph = g ∧ r.2.layers.length = k)
    (trainCalls d.size b epochs) (s, n) (by
      rintro c hc ⟨s, n⟩ ⟨h1, h2, h3⟩
      dsimp only at h1 h2 h3
      cases c with
      | reset =>
        exact ⟨_, rfl, resetScore_kept p.kept h1, h2, by
          show n.resetScore.layers.length = k
          simp [Net.resetScore, h3]⟩
      | step i =>
        obtain ⟨x, t, e1, e2, e3, e4⟩ := hd i (sample_of_mem hc)
        obtain ⟨n', e5, e6, e7, e8⟩ := step_total (p := p) (n := n) (q := q) (by rw [h2, h3]; exact hp) h1
          (by rw [h3]; exact hq) e3 e4
        refine ⟨(s, n'), ?_, e6, e7.trans h2, e8.trans h3⟩
        show (d.input i >>= fun x => _) = _
        rw [e1, Exec.bind_ok, e2, Exec.bind_ok, e5]
        rfl
      | train =>
        obtain ⟨s', n', e1, e2, e3, e4⟩ := train_total opt s h1
        refine ⟨(s', n'), ?_, e2, e3.trans h2, e4.trans h3⟩
        show ((n.train opt s).2 >>= fun _ => _) = _
        rw [e1]
        rfl) ⟨hh, hg, hk⟩
  exact ⟨r, by rw [h1], h2⟩

theorem nnTrain_total {p : Plan} {g : DLGraph} {k q : Nat} (hp : p.Steppable k g q) (hq : q < k)
    (o : Nn.OptimizerType) (rate : ℝ) {n : Net} (hh : AllAt p.Holds n.layers) (hg : n.graph = g)
    (hk : n.layers.length = k) {d : Data.Dataset ℝ} (hd : Suits p.lf p.nin (p.sizes q).1 d) {fuel epochs b : Nat}
    (hb : 1 ≤ b) (hf : batchCount d.size b ≤ fuel) :
    ∃ n', Nn.train o rate d fuel epochs b n = some (.ok n') ∧ AllAt p.Holds n'.layers ∧
      n'.graph = g ∧ n'.layers.length = k := by
  cases o with
  | gradientDescent =>
    obtain ⟨r, h1, h2⟩ := modelFit_total hp hq (Opt.gdStep rate) () hh hg hk hd (epochs := epochs) hb hf
    refine ⟨r.2, ?_, h2⟩
    unfold Nn.train
    dsimp only
    rw [h1]
    rfl
  | adam =>
    obtain ⟨r, h1, h2⟩ := modelFit_total hp hq (Opt.adamStep rate (9 / 10) (999 / 1000) (1 / 10 ^ 8)) Opt.Adam.init
      hh hg hk hd (epochs := epochs) hb hf
    refine ⟨r.2, ?_, h2⟩
    unfold Nn.train
    dsimp only
    rw [h1]
    rfl

end

end Verif.Net

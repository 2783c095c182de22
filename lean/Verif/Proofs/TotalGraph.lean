import Verif.Proofs.TotalFnn
import Verif.Proofs.TotalRnn

/-! Calls on models of any shape whose layers have buffers of the right sizes. -/

namespace Verif.Net

open Verif.Spec Verif.Graph

noncomputable section

/-- Sizes of the layers of a model: inputs and outputs by position, which positions hold loss layers and of which
function, the size of the input vectors, and if there may be recurrent layers. -/
structure Layout where
  sizes : Nat → Nat × Nat
  loss : Nat → Option LossFn
  nin : Nat
  recurrent : Bool

namespace Layout

/-- What holds of the layer at `i`. -/
def Holds (p : Layout) (i : Nat) (a : AnyLayer) : Prop :=
  match p.loss i with
  | some lf => LossFit lf (p.sizes i).1 a
  | none => Servable p.recurrent (p.sizes i).1 (p.sizes i).2 a

theorem holds_loss {p : Layout} {i : Nat} {lf : LossFn} (h : p.loss i = some lf) {a : AnyLayer} :
    p.Holds i a ↔ LossFit lf (p.sizes i).1 a := by
  unfold Holds
  rw [h]

theorem holds_layer {p : Layout} {i : Nat} (h : p.loss i = none) {a : AnyLayer} :
    p.Holds i a ↔ Servable p.recurrent (p.sizes i).1 (p.sizes i).2 a := by
  unfold Holds
  rw [h]

theorem kept (p : Layout) (i : Nat) : Stable (p.Holds i) := by
  cases h : p.loss i with
  | some lf =>
    have : p.Holds i = LossFit lf (p.sizes i).1 := by funext a; exact propext (holds_loss h)
    rw [this]
    exact lossFit_kept _ _
  | none =>
    have : p.Holds i = Servable p.recurrent (p.sizes i).1 (p.sizes i).2 := by funext a; exact propext (holds_layer h)
    rw [this]
    exact servable_kept _ _ _

/-- The source `s` supplies the input of the layer at `i` when the layers in `vis` have been called. -/
def Feeds (p : Layout) (vis : Nat → Prop) (s : Source) (i : Nat) : Prop :=
  match s with
  | .external => (p.sizes i).1 = p.nin
  | .output j => vis j ∧ p.loss j = none ∧ (p.sizes j).2 = (p.sizes i).1

/-- Each call of a traversal finds its input. -/
def Ordered (p : Layout) (k : Nat) : (Nat → Prop) → List (Source × Nat) → Prop
  | _, [] => True
  | vis, s :: ss => s.2 < k ∧ p.Feeds vis s.1 s.2 ∧ p.Ordered k (fun j => vis j ∨ j = s.2) ss

/-- The layers in `vis` have outputs of the right length. -/
def Full (p : Layout) (vis : Nat → Prop) (ls : List AnyLayer) : Prop :=
  ∀ j a, vis j → p.loss j = none → ls[j]? = some a → Filled (p.sizes j).2 a

theorem value_total {p : Layout} {vis : Nat → Prop} {ls : List AnyLayer} {x : List ℝ} {s : Source} {i : Nat}
    (hf : p.Full vis ls) (hk : ∀ j, vis j → j < ls.length) (hx : x.length = p.nin) (hs : p.Feeds vis s i) :
    ∃ v, value ls x s = .ok v ∧ v.length = (p.sizes i).1 := by
  cases s with
  | external => exact ⟨x, rfl, hx.trans hs.symm⟩
  | output j =>
    obtain ⟨h1, h2, h3⟩ := hs
    obtain ⟨y, h4, h5⟩ := hf j _ h1 h2 (List.getElem?_eq_getElem (hk j h1))
    refine ⟨y, ?_, h5.trans h3⟩
    show (rd ls j >>= fun l => _) = _
    rw [rd_ok (hk j h1), Exec.bind_ok]
    exact h4

theorem Full.set {p : Layout} {vis : Nat → Prop} {ls : List AnyLayer} (hf : p.Full vis ls) {i : Nat} {a : AnyLayer}
    (ha : p.loss i = none → Filled (p.sizes i).2 a) : p.Full (fun j => vis j ∨ j = i) (ls.set i a) := by
  intro j b hv hq hb
  rw [List.getElem?_set] at hb
  split at hb
  · rename_i hj
    subst hj
    split at hb
    · cases hb; exact ha hq
    · cases hb
  · rename_i hj
    exact hf j b (hv.resolve_right fun e => hj e.symm) hq hb

/-! ### Predictions -/

theorem forwardAt_total {p : Layout} {vis : Nat → Prop} {ls : List AnyLayer} {x : List ℝ} {s : Source × Nat}
    (hh : AllAt p.Holds ls) (hf : p.Full vis ls) (hk : ∀ j, vis j → j < ls.length) (hx : x.length = p.nin)
    (hi : s.2 < ls.length) (hq : p.loss s.2 = none) (hs : p.Feeds vis s.1 s.2) :
    ∃ ls', forwardAt x ls s = .ok (ls', none) ∧ AllAt p.Holds ls' ∧ ls'.length = ls.length ∧
      p.Full (fun j => vis j ∨ j = s.2) ls' := by
  obtain ⟨v, h1, h2⟩ := value_total hf hk hx hs
  have h3 := (holds_layer hq).mp (hh _ _ (List.getElem?_eq_getElem hi))
  obtain ⟨a', h4, h5⟩ := h3.forward h2
  have e : forwardAt x ls s = .ok (ls.set s.2 a', none) := by
    unfold forwardAt
    rw [h1]
    dsimp only
    rw [rd_ok hi, Exec.bind_ok, h4, Exec.bind_ok]
  exact ⟨_, e, forwardAt_kept p.kept hh e, by simp, hf.set fun _ => h5⟩

theorem forwards_total {p : Layout} {x : List ℝ} (hx : x.length = p.nin) {k : Nat} : ∀ (ss : List (Source × Nat))
    (vis : Nat → Prop) (ls : List AnyLayer), ls.length = k → AllAt p.Holds ls → p.Full vis ls → (∀ j, vis j → j < k) →
    p.Ordered k vis ss → (∀ s ∈ ss, p.loss s.2 = none) →
    ∃ ls', each (forwardAt x) ss ls = .ok (ls', none) ∧ AllAt p.Holds ls' ∧ ls'.length = k ∧
      p.Full (fun j => vis j ∨ ∃ s ∈ ss, j = s.2) ls'
  | [], vis, ls, hk, hh, hf, hv, ho, hq => ⟨ls, rfl, hh, hk, fun j a hj => hf j a (hj.resolve_right (by simp))⟩
  | s :: ss, vis, ls, hk, hh, hf, hv, ho, hq => by
    subst hk
    obtain ⟨ls1, h1, h2, h3, h4⟩ := forwardAt_total hh hf hv hx ho.1 (hq s (by simp)) ho.2.1
    obtain ⟨ls2, h5, h6, h7, h8⟩ := forwards_total hx ss _ ls1 h3 h2 h4
      (by rintro j (hj | rfl); exacts [hv j hj, ho.1]) ho.2.2 (fun t ht => hq t (by simp [ht]))
    refine ⟨ls2, ?_, h6, h7, ?_⟩
    · unfold each
      rw [h1, Exec.bind_ok]
      exact h5
    · intro j a hj
      apply h8
      rcases hj with hj | ⟨t, ht, rfl⟩
      · exact .inl (.inl hj)
      · rcases List.mem_cons.mp ht with rfl | ht
        · exact .inl (.inr rfl)
        · exact .inr ⟨t, ht, rfl⟩

theorem Ordered.bound {p : Layout} {k : Nat} : ∀ {ss : List (Source × Nat)} {vis : Nat → Prop}, p.Ordered k vis ss →
    ∀ s ∈ ss, s.2 < k
  | [], _, _, s, hs => by cases hs
  | t :: ss, vis, ho, s, hs => by
    rcases List.mem_cons.mp hs with rfl | hs
    · exact ho.1
    · exact ho.2.2.bound s hs

theorem predict_total {p : Layout} {n : Net} {x : List ℝ} {o : Nat} {os : List Nat} (hh : AllAt p.Holds n.layers)
    (hx : x.length = p.nin) (ho : p.Ordered n.layers.length (fun _ => False) (forwardSources n.graph))
    (hq : ∀ s ∈ forwardSources n.graph, p.loss s.2 = none) (hout : n.graph.outputs = o :: os)
    (hov : ∃ s ∈ forwardSources n.graph, o = s.2) :
    ∃ n' y, n.predict x = .ok (n', .ok y) ∧ y.length = (p.sizes o).2 ∧ AllAt p.Holds n'.layers ∧
      n'.graph = n.graph ∧ n'.layers.length = n.layers.length := by
  obtain ⟨ls, h1, h2, h3, h4⟩ := forwards_total hx (forwardSources n.graph) (fun _ => False) n.layers rfl hh
    (fun j a hj => hj.elim) (fun j hj => hj.elim) ho hq
  have hok : o < ls.length := by
    rw [h3]
    obtain ⟨s, hs, rfl⟩ := hov
    exact ho.bound s hs
  obtain ⟨y, h5, h6⟩ := h4 o _ (.inr hov) (by obtain ⟨s, hs, rfl⟩ := hov; exact hq s hs) (List.getElem?_eq_getElem hok)
  refine ⟨⟨n.graph, ls⟩, y, ?_, h6, h2, rfl, h3⟩
  unfold Net.predict
  rw [hout]
  dsimp only
  unfold forwardSources at h1
  rw [h1, Exec.bind_ok]
  dsimp only
  rw [rd_ok hok, Exec.bind_ok, h5]

/-! ### Steps -/

/-- During the forward part of `step`. -/
structure Running (p : Layout) (vis : Nat → Prop) (t : List ℝ) (k : Nat) (st : Steps) : Prop where
  holds : AllAt p.Holds st.layers
  full : p.Full vis st.layers
  length : st.layers.length = k
  flen : st.from_.length = k
  target : ∀ i f l, p.loss i ≠ none → st.layers[i]? = some (.loss f l) → l.target = t
  sources : ∀ j, vis j → j < k ∧ ∃ s, st.from_[j]? = some (some s) ∧ p.Feeds vis s j

theorem Feeds.mono {p : Layout} {vis vis' : Nat → Prop} (h : ∀ j, vis j → vis' j) {s : Source} {i : Nat}
    (hs : p.Feeds vis s i) : p.Feeds vis' s i := by
  cases s with
  | external => exact hs
  | output j => exact ⟨h j hs.1, hs.2⟩

/-- All loss layers can score the target. -/
def Scores (p : Layout) (t : List ℝ) : Prop := ∀ i lf, p.loss i = some lf → CanScore lf (p.sizes i).1 t

theorem trainAt_total {p : Layout} {vis : Nat → Prop} {t : List ℝ} {k : Nat} {st : Steps} {x : List ℝ} {s : Source × Nat}
    (hr : p.Running vis t k st) (hx : x.length = p.nin) (hi : s.2 < k)
    (hs : p.Feeds vis s.1 s.2) (ht : p.Scores t) :
    ∃ st', trainAt x st s = .ok (st', none) ∧ p.Running (fun j => vis j ∨ j = s.2) t k st' := by
  obtain ⟨v, h1, h2⟩ := value_total hr.full (fun j hj => by rw [hr.length]; exact (hr.sources j hj).1) hx hs
  have hi' : s.2 < st.layers.length := by rw [hr.length]; exact hi
  have h3 := hr.holds _ _ (List.getElem?_eq_getElem hi')
  have key : ∃ a', (st.layers[s.2]).trainingForward v = .ok (a', none) ∧
      (p.loss s.2 = none → Filled (p.sizes s.2).2 a') ∧ (p.loss s.2 ≠ none → ∀ f l, a' = .loss f l → l.target = t) := by
    cases hq : p.loss s.2 with
    | some lf =>
      obtain ⟨l, h4, h5, h6⟩ := (holds_loss hq).mp h3
      obtain ⟨L', h7, _, h8, _⟩ := loss_train (ht _ _ hq) h5 h2
        (hr.target _ _ _ (by rw [hq]; simp) (by rw [List.getElem?_eq_getElem hi', h4]))
      rw [h4]
      exact ⟨_, h7, fun h => (by cases h), fun _ f l e => by cases e; exact h8⟩
    | none =>
      obtain ⟨a', h4, h5⟩ := ((holds_layer hq).mp h3).trainingForward h2
      exact ⟨a', h4, fun _ => h5, fun h => (h rfl).elim⟩
  obtain ⟨a', h4, h5, h6⟩ := key
  have e : trainAt x st s = .ok (⟨st.layers.set s.2 a', st.from_.set s.2 (some s.1)⟩, none) := by
    unfold trainAt
    rw [h1]
    dsimp only
    rw [rd_ok hi', Exec.bind_ok, h4, Exec.bind_ok]
  refine ⟨_, e, trainAt_kept p.kept hr.holds e, hr.full.set h5, by simp [hr.length], by simp [hr.flen], ?_, ?_⟩
  · intro i f l hq hl
    dsimp only at hl
    rw [List.getElem?_set] at hl
    split at hl
    · rename_i hj
      subst hj
      cases hl
      exact h6 hq _ _ rfl
    · exact hr.target i f l hq hl
  · intro j hj
    dsimp only
    by_cases e : s.2 = j
    · subst e
      refine ⟨hi, s.1, ?_, hs.mono fun _ => .inl⟩
      rw [List.getElem?_set_self (by rw [hr.flen]; exact hi)]
    · obtain ⟨g1, s', g2, g3⟩ := hr.sources j (hj.resolve_right fun h => e h.symm)
      refine ⟨g1, s', ?_, g3.mono fun _ => .inl⟩
      rw [List.getElem?_set_ne e]
      exact g2

theorem trains_total {p : Layout} {x t : List ℝ} (hx : x.length = p.nin)
    (ht : p.Scores t) {k : Nat} : ∀ (ss : List (Source × Nat))
    (vis : Nat → Prop) (st : Steps), p.Running vis t k st → p.Ordered k vis ss →
    ∃ st', each (trainAt x) ss st = .ok (st', none) ∧ p.Running (fun j => vis j ∨ ∃ s ∈ ss, j = s.2) t k st'
  | [], vis, st, hr, _ => by
    refine ⟨st, rfl, ?_⟩
    have : (fun j => vis j ∨ ∃ s ∈ ([] : List (Source × Nat)), j = s.2) = vis := by funext j; simp
    rw [this]
    exact hr
  | s :: ss, vis, st, hr, ho => by
    obtain ⟨st1, h1, h2⟩ := trainAt_total hr hx ho.1 ho.2.1 ht
    obtain ⟨st2, h3, h4⟩ := trains_total hx ht ss _ st1 h2 ho.2.2
    refine ⟨st2, ?_, ?_⟩
    · unfold each
      rw [h1, Exec.bind_ok]
      exact h3
    · have : (fun j => vis j ∨ ∃ r ∈ s :: ss, j = r.2) = (fun j => (vis j ∨ j = s.2) ∨ ∃ r ∈ ss, j = r.2) := by
        funext j
        simp [or_assoc]
      rw [this]
      exact h4

theorem backwardAt_total {p : Layout} {vis : Nat → Prop} {t : List ℝ} {k : Nat} {st : Steps} {x g : List ℝ} {i : Nat}
    (hr : p.Running vis t k st) (hx : x.length = p.nin) (hi : vis i)
    (hg : g.length = (p.sizes i).2 ∨ p.loss i ≠ none ∧ g = []) (ht : p.Scores t) :
    ∃ st', backwardAt x st i g = .ok (st', none) ∧ p.Running vis t k st' := by
  obtain ⟨hk, s, h0, hs⟩ := hr.sources i hi
  obtain ⟨v, h1, h2⟩ := value_total hr.full (fun j hj => by rw [hr.length]; exact (hr.sources j hj).1) hx hs
  have hi' : i < st.layers.length := by rw [hr.length]; exact hk
  have hget := List.getElem?_eq_getElem hi'
  have h3 := hr.holds _ _ hget
  have key : ∃ a', ((st.layers[i]).setLastInput v).backward g = .ok (a', none) ∧
      (p.loss i = none → Filled (p.sizes i).2 a') ∧ (p.loss i ≠ none → ∀ f l, a' = .loss f l → l.target = t) := by
    cases hq : p.loss i with
    | some lf =>
      obtain ⟨l, h4, h5, h6⟩ := (holds_loss hq).mp h3
      have h7 := hr.target _ _ _ (by rw [hq]; simp) (by rw [hget, h4])
      rw [h4]
      exact ⟨_, loss_back (ht _ _ hq).1 h6 h2 h7, fun h => (by cases h), fun _ f l e => by cases e; exact h7⟩
    | none =>
      obtain ⟨a', h4, h5⟩ := ((holds_layer hq).mp h3).back h2 (hg.resolve_right fun h => h.1 hq)
      refine ⟨a', h4, fun _ => ?_, fun h => (h rfl).elim⟩
      unfold Filled
      rw [h5]
      exact hr.full i _ hi hq hget
  obtain ⟨a', h4, h5, h6⟩ := key
  have e : backwardAt x st i g = .ok (⟨st.layers.set i a', st.from_⟩, none) := by
    unfold backwardAt
    rw [rd_ok hi', Exec.bind_ok]
    unfold follow
    rw [h0]
    dsimp only
    rw [h1, Exec.bind_ok, Exec.bind_ok, h4, Exec.bind_ok]
  have hvis : (fun j => vis j ∨ j = i) = vis := by
    funext j
    apply propext
    exact ⟨fun h => h.elim id fun e => e ▸ hi, .inl⟩
  refine ⟨_, e, backwardAt_kept p.kept hr.holds e, hvis ▸ hr.full.set h5, by simp [hr.length], hr.flen, ?_, hr.sources⟩
  intro j f l hq hl
  dsimp only at hl
  rw [List.getElem?_set] at hl
  split at hl
  · rename_i hj
    subst hj
    cases hl
    exact h6 hq _ _ rfl
  · exact hr.target j f l hq hl

theorem losses_total {p : Layout} {vis : Nat → Prop} {x t : List ℝ} (hx : x.length = p.nin) (ht : p.Scores t)
    {k : Nat} : ∀ (is : List Nat) (st : Steps), p.Running vis t k st → (∀ i ∈ is, vis i ∧ p.loss i ≠ none) →
    ∃ st', each (fun st i => backwardAt x st i []) is st = .ok (st', none) ∧ p.Running vis t k st'
  | [], st, hr, _ => ⟨st, rfl, hr⟩
  | i :: is, st, hr, ha => by
    obtain ⟨st1, h1, h2⟩ := backwardAt_total hr hx (ha i (by simp)).1 (.inr ⟨(ha i (by simp)).2, rfl⟩) ht
    obtain ⟨st2, h3, h4⟩ := losses_total hx ht is st1 h2 (fun b hb => ha b (by simp [hb]))
    refine ⟨st2, ?_, h4⟩
    unfold each
    rw [h1, Exec.bind_ok]
    exact h3

theorem backArcs_total {p : Layout} {vis : Nat → Prop} {x t : List ℝ} (hx : x.length = p.nin)
    (ht : p.Scores t) {k : Nat} : ∀ (as : List (Nat × Nat)) (st : Steps),
    p.Running vis t k st → (∀ a ∈ as, vis a.1 ∧ vis a.2 ∧ (p.sizes a.1).1 = (p.sizes a.2).2) →
    ∃ st', each (backArcAt x) as st = .ok (st', none) ∧ p.Running vis t k st'
  | [], st, hr, _ => ⟨st, rfl, hr⟩
  | a :: as, st, hr, ha => by
    obtain ⟨a1, a2, a3⟩ := ha a (by simp)
    have hi : a.1 < st.layers.length := by rw [hr.length]; exact (hr.sources _ a1).1
    have hlen : (st.layers[a.1]).lastInputGradient.length = (p.sizes a.2).2 := by
      have h := hr.holds _ _ (List.getElem?_eq_getElem hi)
      rw [← a3]
      cases hq : p.loss a.1 with
      | some lf =>
        obtain ⟨l, h1, _, h2⟩ := (holds_loss hq).mp h
        rw [h1]
        exact h2
      | none => exact ((holds_layer hq).mp h).grad
    obtain ⟨st1, h1, h2⟩ := backwardAt_total hr hx a2 (.inl hlen) ht
    obtain ⟨st2, h3, h4⟩ := backArcs_total hx ht as st1 h2 (fun b hb => ha b (by simp [hb]))
    refine ⟨st2, ?_, h4⟩
    unfold each
    have e : backArcAt x st a = .ok (st1, none) := by
      unfold backArcAt
      rw [rd_ok hi, Exec.bind_ok]
      exact h1
    rw [e, Exec.bind_ok]
    exact h3

theorem targets_total {p : Layout} {t : List ℝ} {k : Nat} : ∀ (is : List Nat) (ls : List AnyLayer),
    AllAt p.Holds ls → ls.length = k → (∀ i ∈ is, i < k ∧ p.loss i ≠ none) →
    (∀ i f l, p.loss i ≠ none → i ∉ is → ls[i]? = some (.loss f l) → l.target = t) →
    ∃ ls', each (targetAt t) is ls = .ok (ls', none) ∧ AllAt p.Holds ls' ∧ ls'.length = k ∧
      ∀ i f l, p.loss i ≠ none → ls'[i]? = some (.loss f l) → l.target = t
  | [], ls, hh, hk, _, ht => ⟨ls, rfl, hh, hk, fun i f l h h' => ht i f l h (by simp) h'⟩
  | i :: is, ls, hh, hk, hi, ht => by
    have hil : i < ls.length := by rw [hk]; exact (hi i (by simp)).1
    obtain ⟨lf, hq⟩ := Option.ne_none_iff_exists'.mp (hi i (by simp)).2
    obtain ⟨l, h1, _⟩ := (holds_loss hq).mp (hh _ _ (List.getElem?_eq_getElem hil))
    have e : targetAt t ls i = .ok (ls.set i (.loss lf (l.setTarget t)), none) := by
      unfold targetAt
      rw [rd_ok hil, Exec.bind_ok, h1]
    obtain ⟨ls', h2, h3⟩ := targets_total is (ls.set i (.loss lf (l.setTarget t))) (targetAt_kept p.kept hh e)
      (by simp [hk]) (fun j hj => hi j (by simp [hj])) (by
        intro j f l' hj hn hl
        rw [List.getElem?_set] at hl
        split at hl
        · rename_i hij
          subst hij
          cases hl
          rfl
        · rename_i hij
          exact ht j f l' hj (by simp [hn, Ne.symm hij]) hl)
    refine ⟨ls', ?_, h3⟩
    unfold each
    rw [e, Exec.bind_ok]
    exact h2

/-- What the graph of a model offers to `step`. -/
structure Steppable (p : Layout) (k : Nat) (g : DLGraph) : Prop where
  loss : ∀ i, p.loss i ≠ none ↔ i ∈ g.loss
  ordered : p.Ordered k (fun _ => False) (trainingSources g)
  reached : ∀ i ∈ g.loss, ∃ s ∈ trainingSources g, i = s.2
  backward : ∀ a ∈ backwardArcs g, (∃ s ∈ trainingSources g, a.1 = s.2) ∧ (∃ s ∈ trainingSources g, a.2 = s.2) ∧
    (p.sizes a.1).1 = (p.sizes a.2).2

theorem step_total {p : Layout} {n : Net} {x t : List ℝ} (hp : p.Steppable n.layers.length n.graph)
    (hh : AllAt p.Holds n.layers) (hx : x.length = p.nin) (ht : p.Scores t) :
    ∃ n', n.step x t = .ok (n', none) ∧ AllAt p.Holds n'.layers ∧ n'.graph = n.graph ∧
      n'.layers.length = n.layers.length := by
  obtain ⟨ls, e1, k1, k2, k3⟩ := targets_total (p := p) (t := t) n.graph.loss n.layers hh rfl (fun i hi => by
      refine ⟨?_, (hp.loss i).mpr hi⟩
      obtain ⟨s, hs, rfl⟩ := hp.reached i hi
      exact hp.ordered.bound s hs) (fun i f l h h' => (h' ((hp.loss i).mp h)).elim)
  have r1 : p.Running (fun _ => False) t n.layers.length ⟨ls, List.replicate ls.length none⟩ :=
    ⟨k1, fun j a hj => hj.elim, k2, by simp [k2], k3, fun j hj => hj.elim⟩
  obtain ⟨st1, e2, r2⟩ := trains_total hx ht _ _ _ r1 hp.ordered
  obtain ⟨st2, e3, r3⟩ := losses_total hx ht n.graph.loss st1 r2
    (fun i hi => ⟨.inr (hp.reached i hi), (hp.loss i).mpr hi⟩)
  obtain ⟨st3, e4, r4⟩ := backArcs_total hx ht (backwardArcs n.graph) st2 r3
    (fun a ha => ⟨.inr (hp.backward a ha).1, .inr (hp.backward a ha).2.1, (hp.backward a ha).2.2⟩)
  refine ⟨⟨n.graph, st3.layers⟩, ?_, r4.holds, rfl, r4.length⟩
  unfold Net.step
  unfold trainingSources at e2
  rw [e1, next_ok, e2, next_ok, e3, next_ok, e4]
  rfl

/-! ### Updates -/

theorem train_layer {p : Layout} {σ : Type} (opt : σ → ℝ → ℝ → σ × ℝ) (s : σ) {i : Nat} {a : AnyLayer}
    (h : p.Holds i a) : ∃ s' a', a.train opt s = ((s', a'), .ok ()) ∧ p.Holds i a' := by
  cases hq : p.loss i with
  | some lf =>
    obtain ⟨l, rfl, h1, h2⟩ := (holds_loss hq).mp h
    obtain ⟨s', P, G, h3, _⟩ := train_returns opt s (a := .loss lf l) ⟨rfl, rfl⟩
    exact ⟨s', _, h3, (holds_loss hq).mpr ⟨l, rfl, h1, h2⟩⟩
  | none =>
    obtain ⟨s', a', h1, h2⟩ := ((holds_layer hq).mp h).train opt s
    exact ⟨s', a', h1, (holds_layer hq).mpr h2⟩

theorem trainLayers_total {p : Layout} {σ : Type} (opt : σ → ℝ → ℝ → σ × ℝ) : ∀ (ls : List AnyLayer) (s : σ) (k : Nat),
    (∀ i a, ls[i]? = some a → p.Holds (k + i) a) → ∃ s' ls', trainLayers opt s ls = ((s', ls'), .ok ()) ∧
      ls'.length = ls.length ∧ ∀ i a, ls'[i]? = some a → p.Holds (k + i) a
  | [], s, k, h => ⟨s, [], rfl, rfl, h⟩
  | a :: as, s, k, h => by
    obtain ⟨s1, a', h1, h2⟩ := train_layer opt s (h 0 a rfl)
    obtain ⟨s2, ls', h3, h4, h5⟩ := trainLayers_total opt as s1 (k + 1) (fun i b hb => by
      have := h (i + 1) b hb
      rwa [show k + 1 + i = k + (i + 1) by omega])
    refine ⟨s2, a' :: ls', ?_, by simp [h4], ?_⟩
    · unfold trainLayers
      rw [h1]
      dsimp only
      rw [h3]
    · intro i b hb
      cases i with
      | zero => cases hb; exact h2
      | succ i =>
        have := h5 i b hb
        rwa [show k + (i + 1) = k + 1 + i by omega]

theorem train_total {p : Layout} {σ : Type} (opt : σ → ℝ → ℝ → σ × ℝ) (s : σ) {n : Net} (hh : AllAt p.Holds n.layers) :
    ∃ s' n', n.train opt s = ((s', n'), .ok ()) ∧ AllAt p.Holds n'.layers ∧ n'.graph = n.graph ∧
      n'.layers.length = n.layers.length := by
  obtain ⟨s', ls', h1, h2, h3⟩ := trainLayers_total opt n.layers s 0 (p := p) (fun i a ha => by
    rw [Nat.zero_add]; exact hh i a ha)
  refine ⟨s', ⟨n.graph, ls'⟩, ?_, fun i a ha => by have := h3 i a ha; rwa [Nat.zero_add] at this, rfl, h2⟩
  unfold Net.train
  rw [h1]

end Layout

end

end Verif.Net

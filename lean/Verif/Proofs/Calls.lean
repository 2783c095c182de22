import Verif.Spec.Calls
import Verif.Proofs.Frame
import Verif.Proofs.World

/-! Pointers to inputs that nobody changes behave like copies. -/

namespace Verif.Calls

open Verif Verif.Net Verif.Training Verif.Spec

noncomputable section

/-! ### Which buffers a member function changes -/

theorem loss_gradients {f : LossFn} {l : Loss.Layer} {v : List ℝ} {o : Loss.Layer × Option String}
    (h : f.forward l v = .ok o) : o.1.gradients = l.gradients := by
  cases f with
  | mse =>
    simp only [LossFn.forward, Loss.mseForward] at h
    split at h
    · cases h; rfl
    · obtain ⟨x, _, h⟩ := Exec.bind_eq_ok h
      split at h <;> · cases h; rfl
  | cce =>
    simp only [LossFn.forward, Loss.cceForward] at h
    split at h
    · cases h; rfl
    · obtain ⟨x, _, h⟩ := Exec.bind_eq_ok h
      obtain ⟨y, _, h⟩ := Exec.bind_eq_ok h
      split at h
      · split at h <;> · cases h; rfl
      · cases h; rfl
      · cases h

theorem grad_forward {a a' : AnyLayer} {v : List ℝ} {e : Option String} (h : a.forward v = .ok (a', e)) :
    a'.lastInputGradient = a.lastInputGradient := by
  cases a with
  | act f l =>
    rcases keep_ok h with rfl | ⟨l', h1, rfl, _⟩
    · rfl
    · cases f with
      | linear => cases h1; rfl
      | _ =>
        obtain ⟨o, h2, h3⟩ := Exec.bind_eq_ok h1
        cases h3
        rfl
  | dropout mx raw l => cases h; rfl
  | loss f l =>
    obtain ⟨o, h2, h3⟩ := Exec.bind_eq_ok h
    cases h3
    exact loss_gradients h2
  | _ =>
    rcases keep_ok h with rfl | ⟨l', h1, rfl, _⟩
    · rfl
    · obtain ⟨o, h2, h3⟩ := Exec.bind_eq_ok h1
      cases h3
      rfl

theorem grad_trainingForward {a a' : AnyLayer} {v : List ℝ} {e : Option String}
    (h : a.trainingForward v = .ok (a', e)) : a'.lastInputGradient = a.lastInputGradient := by
  rcases trainingForward_cases a v with ⟨mx, raw, l, rfl⟩ | h1
  · rcases keep_ok h with rfl | ⟨l', h1, rfl, _⟩
    · rfl
    · obtain ⟨o, h2, h3⟩ := Exec.bind_eq_ok h1
      cases h3
      rfl
  · rw [h1] at h
    rw [grad_forward h]
    cases a <;> rfl

theorem out_backward {a a' : AnyLayer} {g : List ℝ} {e : Option String} (h : a.backward g = .ok (a', e)) :
    a'.lastOutput = a.lastOutput := by
  cases a with
  | dropout mx raw l =>
    rcases keep_ok h with rfl | ⟨l', h1, rfl, _⟩
    · rfl
    · obtain ⟨o, h2, h3⟩ := Exec.bind_eq_ok h1
      obtain ⟨o, h2, h3⟩ := Exec.bind_eq_ok h3
      cases h3
      rfl
  | conv l =>
    rcases keep_ok h with rfl | ⟨l', h1, rfl, _⟩
    · rfl
    · obtain ⟨o, h2, h3⟩ := Exec.bind_eq_ok h1
      obtain ⟨o, h2, h3⟩ := Exec.bind_eq_ok h3
      cases h3
      rfl
  | act f l =>
    rcases keep_ok h with rfl | ⟨l', h1, rfl, _⟩
    · rfl
    · cases f with
      | linear =>
        obtain ⟨o, h2, h3⟩ := Exec.bind_eq_ok h1
        cases h3
        rfl
      | softmax =>
        obtain ⟨o, h2, h3⟩ := Exec.bind_eq_ok h1
        cases h3
        rfl
      | _ =>
        obtain ⟨o, h2, h3⟩ := Exec.bind_eq_ok h1
        obtain ⟨o', h4, h3⟩ := Exec.bind_eq_ok h3
        cases h3
        rfl
  | loss f l =>
    rcases keep_ok h with rfl | ⟨l', h1, rfl, _⟩ <;> rfl
  | _ =>
    rcases keep_ok h with rfl | ⟨l', h1, rfl, _⟩
    · rfl
    · obtain ⟨o, h2, h3⟩ := Exec.bind_eq_ok h1
      cases h3
      rfl

theorem buffers_setParams (a : AnyLayer) (ps : List (List ℝ)) :
    (a.setParams ps).lastOutput = a.lastOutput ∧ (a.setParams ps).lastInputGradient = a.lastInputGradient := by
  unfold AnyLayer.setParams
  split <;> exact ⟨rfl, rfl⟩

theorem buffers_setParamGrads (a : AnyLayer) (ps : List (List ℝ)) :
    (a.setParamGrads ps).lastOutput = a.lastOutput ∧
      (a.setParamGrads ps).lastInputGradient = a.lastInputGradient := by
  unfold AnyLayer.setParamGrads
  split <;> exact ⟨rfl, rfl⟩

theorem buffers_train {σ : Type} (opt : σ → ℝ → ℝ → σ × ℝ) (s : σ) (a : AnyLayer) :
    (a.train opt s).1.2.lastOutput = a.lastOutput ∧
      (a.train opt s).1.2.lastInputGradient = a.lastInputGradient := by
  unfold AnyLayer.train
  dsimp only
  rw [(buffers_setParamGrads _ _).1, (buffers_setParamGrads _ _).2, (buffers_setParams _ _).1,
    (buffers_setParams _ _).2]
  exact ⟨rfl, rfl⟩

/-- Dropout layers. -/
def isDrop : AnyLayer → Bool
  | .dropout _ _ _ => true
  | _ => false

theorem isDrop_setParams (a : AnyLayer) (ps : List (List ℝ)) : isDrop (a.setParams ps) = isDrop a := by
  unfold AnyLayer.setParams
  split <;> rfl

theorem isDrop_setParamGrads (a : AnyLayer) (ps : List (List ℝ)) : isDrop (a.setParamGrads ps) = isDrop a := by
  unfold AnyLayer.setParamGrads
  split <;> rfl

theorem isDrop_train {σ : Type} (opt : σ → ℝ → ℝ → σ × ℝ) (s : σ) (a : AnyLayer) :
    isDrop (a.train opt s).1.2 = isDrop a := by
  unfold AnyLayer.train
  dsimp only
  rw [isDrop_setParamGrads, isDrop_setParams]

theorem isDrop_of_core {a b : AnyLayer} (h : core a = core b) : isDrop a = isDrop b := by
  cases a <;> cases b <;> first | rfl | (simp [core] at h)

/-! ### The simulation -/

/-- The object `o` and the specified layer `l` have the same members, and the bookkeeping `m` says what the
pointer of `o` points to. -/
structure Match (m : Mark) (w : World) (o : Object) (l : Spec.Layer) : Prop where
  own : l.own = o.obj.own
  addr : l.addr = o.obj.addr
  size : l.inSize = o.inSize
  drop : m.dropout = isDrop o.obj.own
  source : m.source = o.last
  null : o.last = none → l.seen = none
  same : ∀ p, o.last = some p → ∃ x, l.seen = some x ∧ (m.changed = false → w.value p = .ok x)

/-- The layers at one position. -/
def Pair (t : List Mark) (w : World) (v : Copies) (k : Nat) : Prop :=
  (live w.layers k = .ub ∧ live v.layers k = .ub) ∨
    ∃ m o l, t[k]? = some m ∧ live w.layers k = .ok o ∧ live v.layers k = .ok l ∧ Match m w o l

/-- The code and the specification after the same calls. -/
structure Sim (t : List Mark) (w : World) (v : Copies) : Prop where
  heap : v.heap = w.heap
  vecs : v.vecs = w.vecs
  len1 : v.layers.length = w.layers.length
  len2 : t.length = w.layers.length
  pair : ∀ k, Pair t w v k

theorem live_cases {α : Type} (xs : List (Option α)) (i : Nat) :
    live xs i = .ub ∨ ∃ a, live xs i = .ok a ∧ xs[i]? = some (some a) := by
  unfold live
  split
  · rename_i a h
    exact Or.inr ⟨a, rfl, h⟩
  · exact Or.inl rfl

theorem live_ok {α : Type} {xs : List (Option α)} {i : Nat} {a : α} (h : live xs i = .ok a) :
    xs[i]? = some (some a) := by
  rcases live_cases xs i with h' | ⟨b, h', e⟩
  · rw [h] at h'; cases h'
  · rw [h] at h'; cases h'; exact e

theorem live_set {α : Type} (xs : List (Option α)) (i j : Nat) (a : Option α) (hi : i < xs.length) :
    live (xs.set i a) j = if i = j then (match a with | some a => .ok a | none => .ub) else live xs j := by
  unfold live
  rw [List.getElem?_set]
  by_cases hij : i = j
  · subst hij
    rw [if_pos rfl, if_pos rfl, if_pos hi]
    cases a <;> rfl
  · rw [if_neg hij, if_neg hij]

theorem live_append {α : Type} {xs : List (Option α)} {i : Nat} {a : α} (ys : List (Option α))
    (h : live xs i = .ok a) : live (xs ++ ys) i = .ok a := by
  have e := live_ok h
  unfold live
  rw [List.getElem?_append_left (List.getElem?_eq_some_iff.mp e).1, e]

theorem live_lt {α : Type} {xs : List (Option α)} {i : Nat} {a : α} (h : live xs i = .ok a) : i < xs.length :=
  (List.getElem?_eq_some_iff.mp (live_ok h)).1

theorem sim_value {t : List Mark} {w : World} {v : Copies} (h : Sim t w v) (p : Ref) : v.value p = w.value p := by
  cases p with
  | vec i => show live v.vecs i = live w.vecs i; rw [h.vecs]
  | out k =>
    show (live v.layers k >>= fun l => l.own.lastOutput) = (live w.layers k >>= fun o => o.obj.own.lastOutput)
    rcases h.pair k with ⟨h1, h2⟩ | ⟨m, o, l, _, h1, h2, h3⟩
    · rw [h1, h2]; rfl
    · rw [h1, h2, Exec.bind_ok, Exec.bind_ok, h3.own]
  | grad k =>
    show (live v.layers k >>= fun l => Exec.ok l.own.lastInputGradient)
      = (live w.layers k >>= fun o => Exec.ok o.obj.own.lastInputGradient)
    rcases h.pair k with ⟨h1, h2⟩ | ⟨m, o, l, _, h1, h2, h3⟩
    · rw [h1, h2]; rfl
    · rw [h1, h2, Exec.bind_ok, Exec.bind_ok, h3.own]

/-- Only the vectors in `ws` have changed. -/
def Keeps (ws : List Ref) (w w' : World) : Prop :=
  ∀ p, p ∉ ws → ∀ x, w.value p = .ok x → w'.value p = .ok x

theorem match_touch {ws : List Ref} {w w' : World} {m : Mark} {o : Object} {l : Spec.Layer} (hk : Keeps ws w w')
    (h : Match m w o l) : Match (m.touch ws) w' o l := by
  have e1 : (m.touch ws).source = m.source := by unfold Mark.touch; split <;> rfl
  have e2 : (m.touch ws).dropout = m.dropout := by unfold Mark.touch; split <;> rfl
  refine ⟨h.own, h.addr, h.size, e2.trans h.drop, e1.trans h.source, h.null, fun p hp => ?_⟩
  obtain ⟨x, h1, h2⟩ := h.same p hp
  refine ⟨x, h1, fun hc => ?_⟩
  have hs : m.source = some p := h.source.trans hp
  simp only [Mark.touch, hs, Bool.or_eq_false_iff] at hc
  refine hk p ?_ x (h2 hc.1)
  intro hin
  rw [List.contains_iff_mem.mpr hin] at hc
  exact absurd hc.2 (by simp)

/-- Positions whose layers stay. -/
theorem pair_touch {t : List Mark} {ws : List Ref} {w w' : World} {v v' : Copies} {k : Nat} (hk : Keeps ws w w')
    (h : Pair t w v k) (e1 : live w'.layers k = live w.layers k) (e2 : live v'.layers k = live v.layers k) :
    Pair (t.map (Mark.touch ws)) w' v' k := by
  rcases h with ⟨h1, h2⟩ | ⟨m, o, l, h0, h1, h2, h3⟩
  · exact Or.inl ⟨e1.trans h1, e2.trans h2⟩
  · exact Or.inr ⟨m.touch ws, o, l, by rw [List.getElem?_map, h0]; rfl, e1.trans h1, e2.trans h2,
      match_touch hk h3⟩

/-- A member function turned the layer `k` into `a`. -/
theorem sim_put {t : List Mark} {w : World} {v : Copies} (h : Sim t w v) {k : Nat} {o : Object} {l : Spec.Layer}
    {m m' : Mark} (ht : t[k]? = some m) (h1 : live w.layers k = .ok o) (h2 : live v.layers k = .ok l)
    (h3 : Match m w o l) (ws : List Ref) (a : AnyLayer) (last : Option Ref) (seen : Option (List ℝ))
    (hd : isDrop a = isDrop o.obj.own)
    (ho : Ref.out k ∈ ws ∨ a.lastOutput = o.obj.own.lastOutput)
    (hg : Ref.grad k ∈ ws ∨ a.lastInputGradient = o.obj.own.lastInputGradient)
    (hm : ∀ (w' : World), Keeps ws w w' → Match m' w' ⟨⟨a, o.obj.addr⟩, o.inSize, last⟩ ⟨a, l.addr, l.inSize, seen⟩)
    (t' : List Mark) (htl : t'.length = t.length)
    (ht' : t'[k]? = some m') (hto : ∀ j, j ≠ k → t'[j]? = (t.map (Mark.touch ws))[j]?) :
    Sim t' (w.put k o a last) (v.put k l a seen) := by
  have hkw := live_lt h1
  have hkv := live_lt h2
  have keeps : Keeps ws w (w.put k o a last) := by
    intro p hp x hx
    cases p with
    | vec i => exact hx
    | out j =>
      obtain ⟨oj, hj, hx⟩ := Exec.bind_eq_ok hx
      show (live (w.layers.set k _) j >>= fun o => o.obj.own.lastOutput) = .ok x
      rw [live_set _ _ _ _ hkw]
      by_cases hjk : k = j
      · subst hjk
        rw [if_pos rfl]
        rw [h1] at hj; cases hj
        rcases ho with ho | ho
        · exact absurd ho hp
        · exact ho.trans hx
      · rw [if_neg hjk, hj]
        exact hx
    | grad j =>
      obtain ⟨oj, hj, hx⟩ := Exec.bind_eq_ok hx
      show (live (w.layers.set k _) j >>= fun o => Exec.ok o.obj.own.lastInputGradient) = .ok x
      rw [live_set _ _ _ _ hkw]
      by_cases hjk : k = j
      · subst hjk
        rw [if_pos rfl]
        rw [h1] at hj; cases hj
        rcases hg with hg | hg
        · exact absurd hg hp
        · show Exec.ok a.lastInputGradient = .ok x
          rw [hg]; exact hx
      · rw [if_neg hjk, hj]
        exact hx
  refine ⟨?_, h.vecs, ?_, ?_, fun j => ?_⟩
  · show v.heap.put l.addr a.params = w.heap.put o.obj.addr a.params
    rw [h.heap, h3.addr]
  · show (v.layers.set k _).length = (w.layers.set k _).length
    rw [List.length_set, List.length_set, h.len1]
  · show t'.length = (w.layers.set k _).length
    rw [List.length_set, htl, h.len2]
  · have ew : live (w.put k o a last).layers j = _ := live_set w.layers k j _ hkw
    have ev : live (v.put k l a seen).layers j = _ := live_set v.layers k j _ hkv
    by_cases hjk : k = j
    · subst hjk
      rw [if_pos rfl] at ew ev
      exact Or.inr ⟨m', _, _, ht', ew, ev, hm _ keeps⟩
    · rw [if_neg hjk] at ew ev
      rcases pair_touch keeps (h.pair j) ew ev with ⟨a1, a2⟩ | ⟨mm, oo, ll, a0, a1, a2, a3⟩
      · exact Or.inl ⟨a1, a2⟩
      · exact Or.inr ⟨mm, oo, ll, (hto j (fun e => hjk e.symm)).trans a0, a1, a2, a3⟩

/-- The code and the specification do the same. -/
def Agree (t : List Mark) : Exec (World × List (List ℝ)) → Exec (Copies × List (List ℝ)) → Prop
  | .ok r, .ok s => Sim t r.1 s.1 ∧ r.2 = s.2
  | .throw m, .throw n => m = n
  | .ub, .ub => True
  | _, _ => False

theorem agree_bind {α : Type} {t : List Mark} {e : Exec α} {f : α → Exec (World × List (List ℝ))}
    {g : α → Exec (Copies × List (List ℝ))} (h : ∀ a, e = .ok a → Agree t (f a) (g a)) :
    Agree t (e >>= f) (e >>= g) := by
  cases e with
  | ok a => exact h a rfl
  | throw m => exact rfl
  | ub => trivial

theorem keeps_of {w w' : World} (hv : w'.vecs = w.vecs) (hl : w'.layers = w.layers) : Keeps [] w w' := by
  intro p _ x hx
  cases p with
  | vec i => show live w'.vecs i = _; rw [hv]; exact hx
  | out k =>
    show (live w'.layers k >>= fun o => o.obj.own.lastOutput) = _
    rw [hl]; exact hx
  | grad k =>
    show (live w'.layers k >>= fun o => Exec.ok o.obj.own.lastInputGradient) = _
    rw [hl]; exact hx

theorem touch_nil (t : List Mark) : t.map (Mark.touch []) = t := by
  rw [show Mark.touch [] = id from funext fun m => by unfold Mark.touch; split <;> simp]
  exact List.map_id t

/-- The caller's vectors changed from `w` to `w'`. -/
theorem sim_vecs {t : List Mark} {w : World} {v : Copies} (h : Sim t w v) (ws : List Ref)
    (vs : List (Option (List ℝ))) (hk : Keeps ws w { w with vecs := vs }) :
    Sim (t.map (Mark.touch ws)) { w with vecs := vs } { v with vecs := vs } :=
  ⟨h.heap, rfl, h.len1, by rw [List.length_map]; exact h.len2, fun k => pair_touch hk (h.pair k) rfl rfl⟩

theorem keeps_vec {w : World} {i : Nat} {a : List ℝ} (hi : live w.vecs i = .ok a) (b : Option (List ℝ)) :
    Keeps [.vec i] w { w with vecs := w.vecs.set i b } := by
  intro p hp x hx
  cases p with
  | vec j =>
    show live (w.vecs.set i b) j = .ok x
    rw [live_set _ _ _ _ (live_lt hi), if_neg (by rintro rfl; exact hp (by simp))]
    exact hx
  | out k => exact hx
  | grad k => exact hx

theorem lastOutput_dropout {a : AnyLayer} (h : isDrop a = true) : ∃ mx raw l, a = .dropout mx raw l := by
  cases a <;> first | exact ⟨_, _, _, rfl⟩ | cases h

theorem returned_ok {α : Type} {r : α × Option String} {a : α} (h : returned r = .ok a) : r = (a, none) := by
  obtain ⟨b, e⟩ := r
  cases e with
  | none => cases h; rfl
  | some m => cases h

/-- A member function turned the layer `k` into `a` and changed at most the buffers `ws`, not its pointer. -/
theorem sim_keep {t : List Mark} {w : World} {v : Copies} (h : Sim t w v) {k : Nat} {o : Object} {l : Spec.Layer}
    {m : Mark} (ht : t[k]? = some m) (h1 : live w.layers k = .ok o) (h2 : live v.layers k = .ok l)
    (h3 : Match m w o l) (ws : List Ref) (a : AnyLayer)
    (hd : isDrop a = isDrop o.obj.own)
    (ho : Ref.out k ∈ ws ∨ a.lastOutput = o.obj.own.lastOutput)
    (hg : Ref.grad k ∈ ws ∨ a.lastInputGradient = o.obj.own.lastInputGradient) :
    Sim (t.map (Mark.touch ws)) (w.put k o a o.last) (v.put k l a l.seen) := by
  refine sim_put h ht h1 h2 h3 ws a o.last l.seen hd ho hg (m' := m.touch ws) ?_ _ ?_ ?_ ?_
  · intro w' hk
    have := match_touch hk h3
    exact ⟨rfl, this.addr, this.size, by rw [this.drop]; exact hd.symm, this.source, this.null, this.same⟩
  · rw [List.length_map]
  · rw [List.getElem?_map, ht]; rfl
  · intro j _; rfl

/-- A member function turned the layer `k` into `a`, changed at most the buffers `ws` and set its pointer. -/
theorem sim_point {t : List Mark} {w : World} {v : Copies} (h : Sim t w v) {k : Nat} {o : Object} {l : Spec.Layer}
    {m : Mark} (ht : t[k]? = some m) (h1 : live w.layers k = .ok o) (h2 : live v.layers k = .ok l)
    (h3 : Match m w o l) (ws : List Ref) (a : AnyLayer)
    (hd : isDrop a = isDrop o.obj.own)
    (ho : Ref.out k ∈ ws ∨ a.lastOutput = o.obj.own.lastOutput)
    (hg : Ref.grad k ∈ ws ∨ a.lastInputGradient = o.obj.own.lastInputGradient)
    {p : Ref} {x : List ℝ} (hp : p ∉ ws) (hx : w.value p = .ok x) {f : Mark → Mark}
    (hf : f (m.touch ws) = ⟨m.dropout, some p, false⟩) :
    Sim ((t.map (Mark.touch ws)).modify k f) (w.put k o a (some p)) (v.put k l a (some x)) := by
  refine sim_put h ht h1 h2 h3 ws a (some p) (some x) hd ho hg (m' := ⟨m.dropout, some p, false⟩) ?_ _ ?_ ?_ ?_
  · intro w' hk
    refine ⟨rfl, h3.addr, h3.size, h3.drop.trans hd.symm, rfl, (by intro e; cases e), fun q hq => ⟨x, rfl, fun _ => ?_⟩⟩
    cases hq
    exact hk p hp x hx
  · rw [List.length_modify, List.length_map]
  · simp only [List.getElem?_modify, List.getElem?_map, ht, ← hf]; simp
  · intro j hj
    simp only [List.getElem?_modify, if_neg (fun e => hj (Eq.symm e))]
    simp

theorem agree_step {t : List Mark} {w : World} {v : Copies} (h : Sim t w v) (c : Op) (hc : Allowed t c) :
    Agree (marks t c) (w.step c) (v.step c) := by
  have vw : ∀ {m : Mark} {o : Object} {l : Spec.Layer}, Match m w o l → v.layer l = o.obj.view w.heap := by
    intro m o l hm
    show l.own.setParams (l.addr.map v.heap.block) = o.obj.own.setParams (o.obj.addr.map w.heap.block)
    rw [hm.own, hm.addr, h.heap]
  cases c with
  | create x =>
    refine ⟨?_, rfl⟩
    show Sim (t.map (Mark.touch [])) { w with vecs := w.vecs ++ [some x] } { v with vecs := v.vecs ++ [some x] }
    rw [h.vecs]
    refine sim_vecs h [] _ ?_
    intro p _ x hx
    cases p with
    | vec i => exact live_append _ hx
    | out k => exact hx
    | grad k => exact hx
  | write i j x =>
    show Agree _ (live w.vecs i >>= _) (live v.vecs i >>= _)
    rw [h.vecs]
    refine agree_bind fun a ha => agree_bind fun b hb => ⟨?_, rfl⟩
    exact sim_vecs h [.vec i] _ (keeps_vec ha _)
  | destroy i =>
    show Agree _ (live w.vecs i >>= _) (live v.vecs i >>= _)
    rw [h.vecs]
    refine agree_bind fun a ha => ⟨?_, rfl⟩
    exact sim_vecs h [.vec i] _ (keeps_vec ha _)
  | clone k =>
    show Agree _ (live w.layers k >>= _) (live v.layers k >>= _)
    rcases h.pair k with ⟨h1, h2⟩ | ⟨m, o, l, h0, h1, h2, h3⟩
    · rw [h1, h2]; trivial
    rw [h1, h2]
    refine ⟨?_, rfl⟩
    have hk : Keeps [] w { w with layers := w.layers ++ [some ⟨o.obj.clone, o.inSize, o.last⟩] } := by
      intro p _ x hx
      cases p with
      | vec i => exact hx
      | out j =>
        obtain ⟨oj, hj, hx⟩ := Exec.bind_eq_ok hx
        show (live (w.layers ++ _) j >>= fun o => o.obj.own.lastOutput) = .ok x
        rw [live_append _ hj]; exact hx
      | grad j =>
        obtain ⟨oj, hj, hx⟩ := Exec.bind_eq_ok hx
        show (live (w.layers ++ _) j >>= fun o => Exec.ok o.obj.own.lastInputGradient) = .ok x
        rw [live_append _ hj]; exact hx
    show Sim (t.map (Mark.touch []) ++ [(t.map (Mark.touch [])).getD k ⟨false, none, false⟩]) _ _
    rw [touch_nil]
    have hm : t.getD k ⟨false, none, false⟩ = m := by rw [List.getD_eq_getElem?_getD, h0]; rfl
    rw [hm]
    refine ⟨h.heap, h.vecs, ?_, ?_, fun j => ?_⟩
    · show (v.layers ++ [_]).length = (w.layers ++ [_]).length
      rw [List.length_append, List.length_append, h.len1]; rfl
    · show (t ++ [m]).length = (w.layers ++ [_]).length
      rw [List.length_append, List.length_append, h.len2]; rfl
    · have ht : m.touch [] = m := by unfold Mark.touch; split <;> simp
      rcases Nat.lt_trichotomy j w.layers.length with hj | rfl | hj
      · have e1 : live (w.layers ++ [some (⟨o.obj.clone, o.inSize, o.last⟩ : Object)]) j = live w.layers j := by
          unfold live; rw [List.getElem?_append_left hj]
        have e2 : live (v.layers ++ [some l]) j = live v.layers j := by
          unfold live; rw [List.getElem?_append_left (by rw [h.len1]; exact hj)]
        rcases pair_touch (v' := { v with layers := v.layers ++ [some l] }) hk (h.pair j) e1 e2
          with ⟨a1, a2⟩ | ⟨mm, oo, ll, a0, a1, a2, a3⟩
        · exact Or.inl ⟨a1, a2⟩
        · rw [touch_nil] at a0
          refine Or.inr ⟨mm, oo, ll, ?_, a1, a2, a3⟩
          rw [List.getElem?_append_left (by rw [h.len2]; exact hj)]; exact a0
      · refine Or.inr ⟨m, ⟨o.obj.clone, o.inSize, o.last⟩, l, ?_, ?_, ?_, ?_⟩
        · rw [← h.len2]; simp
        · show live (w.layers ++ [_]) _ = _
          unfold live; simp
        · show live (v.layers ++ [_]) _ = _
          unfold live; rw [← h.len1]; simp
        · have := match_touch hk h3
          rw [ht] at this
          exact this
      · refine Or.inl ⟨?_, ?_⟩
        · show live (w.layers ++ [_]) _ = _
          unfold live; rw [List.getElem?_eq_none (by simp; omega)]
        · show live (v.layers ++ [_]) _ = _
          unfold live; rw [List.getElem?_eq_none (by simp [h.len1]; omega)]
  | drop k =>
    show Agree _ (live w.layers k >>= _) (live v.layers k >>= _)
    rcases h.pair k with ⟨h1, h2⟩ | ⟨m, o, l, h0, h1, h2, h3⟩
    · rw [h1, h2]; trivial
    rw [h1, h2]
    refine ⟨?_, rfl⟩
    have hk : Keeps [.out k, .grad k] w { w with layers := w.layers.set k none } := by
      intro p hp x hx
      cases p with
      | vec i => exact hx
      | out j =>
        obtain ⟨oj, hj, hx⟩ := Exec.bind_eq_ok hx
        show (live (w.layers.set k none) j >>= fun o => o.obj.own.lastOutput) = .ok x
        rw [live_set _ _ _ _ (live_lt h1), if_neg (by rintro rfl; exact hp (by simp)), hj]; exact hx
      | grad j =>
        obtain ⟨oj, hj, hx⟩ := Exec.bind_eq_ok hx
        show (live (w.layers.set k none) j >>= fun o => Exec.ok o.obj.own.lastInputGradient) = .ok x
        rw [live_set _ _ _ _ (live_lt h1), if_neg (by rintro rfl; exact hp (by simp)), hj]; exact hx
    refine ⟨h.heap, h.vecs, ?_, ?_, fun j => ?_⟩
    · show (v.layers.set k _).length = (w.layers.set k _).length
      rw [List.length_set, List.length_set, h.len1]
    · show (t.map _).length = (w.layers.set k _).length
      rw [List.length_set, List.length_map, h.len2]
    · have e1 : live (w.layers.set k none) j = _ := live_set w.layers k j none (live_lt h1)
      have e2 : live (v.layers.set k none) j = _ := live_set v.layers k j none (live_lt h2)
      by_cases hj : k = j
      · rw [if_pos hj] at e1 e2
        exact Or.inl ⟨e1, e2⟩
      · rw [if_neg hj] at e1 e2
        exact pair_touch hk (h.pair j) e1 e2
  | target k i =>
    show Agree _ (live w.layers k >>= _) (live v.layers k >>= _)
    rcases h.pair k with ⟨h1, h2⟩ | ⟨m, o, l, h0, h1, h2, h3⟩
    · rw [h1, h2]; trivial
    rw [h1, h2, Exec.bind_ok, Exec.bind_ok, h.vecs]
    refine agree_bind fun x hx => ?_
    rw [vw h3]
    have key : ∀ a : AnyLayer, isDrop a = isDrop (o.obj.view w.heap) → a.lastOutput = (o.obj.view w.heap).lastOutput →
        a.lastInputGradient = (o.obj.view w.heap).lastInputGradient →
        Sim (marks t (.target k i)) (w.put k o a o.last) (v.put k l a l.seen) := by
      intro a e1 e2 e3
      refine sim_put h h0 h1 h2 h3 [] a o.last l.seen (e1.trans (isDrop_setParams _ _))
        (Or.inr (e2.trans (buffers_setParams _ _).1)) (Or.inr (e3.trans (buffers_setParams _ _).2)) (m' := m) ?_ _ ?_ ?_ ?_
      · intro w' hk
        have := match_touch hk h3
        rw [show m.touch [] = m by unfold Mark.touch; split <;> simp] at this
        exact ⟨rfl, this.addr, this.size, by rw [this.drop]; exact (e1.trans (isDrop_setParams _ _)).symm, this.source,
          this.null, this.same⟩
      · show (t.map _).length = _
        rw [List.length_map]
      · show (t.map (Mark.touch []))[k]? = _
        rw [touch_nil]; exact h0
      · intro j _; rfl
    cases hv : o.obj.view w.heap with
    | loss f a =>
      rw [hv] at key
      exact ⟨key _ rfl rfl rfl, rfl⟩
    | _ =>
      rw [hv] at key
      exact ⟨key _ rfl rfl rfl, rfl⟩
  | forward k p =>
    show Agree _ (live w.layers k >>= _) (live v.layers k >>= _)
    rcases h.pair k with ⟨h1, h2⟩ | ⟨m, o, l, h0, h1, h2, h3⟩
    · rw [h1, h2]; trivial
    rw [h1, h2, Exec.bind_ok, Exec.bind_ok, sim_value h, vw h3]
    refine agree_bind fun x hx => agree_bind fun r hr => agree_bind fun a ha => ?_
    rw [returned_ok ha] at hr
    have hd : isDrop a = isDrop o.obj.own := (isDrop_of_core (core_forward hr)).trans (isDrop_setParams _ _)
    have hg : a.lastInputGradient = o.obj.own.lastInputGradient :=
      (grad_forward hr).trans (buffers_setParams _ _).2
    have hp : p ∉ [Ref.out k] := by
      intro e
      exact hc (List.mem_singleton.mp e)
    by_cases hD : isDrop a = true
    · obtain ⟨mx, raw, b, rfl⟩ := lastOutput_dropout hD
      refine ⟨?_, rfl⟩
      refine sim_point h h0 h1 h2 h3 [.out k] _ hd (Or.inl (by simp)) (Or.inr hg) hp hx ?_
      have hmd : m.dropout = true := h3.drop.trans (hd.symm.trans hD)
      have : (m.touch [Ref.out k]).dropout = true := by unfold Mark.touch; split <;> exact hmd
      rw [if_pos this, hmd]
    · have hmd : m.dropout = false := h3.drop.trans (hd.symm.trans (by simpa using hD))
      have ht : (t.map (Mark.touch [Ref.out k])).modify k
          (fun m => if m.dropout then ⟨true, some p, false⟩ else m) = t.map (Mark.touch [Ref.out k]) := by
        apply List.ext_getElem?
        intro j
        rw [List.getElem?_modify]
        by_cases hj : k = j
        · subst hj
          have : (m.touch [Ref.out k]).dropout = false := by unfold Mark.touch; split <;> exact hmd
          simp [h0, this]
        · simp [hj]
      have hs := sim_keep h h0 h1 h2 h3 [.out k] a hd (Or.inl (by simp)) (Or.inr hg)
      rw [← ht] at hs
      cases a with
      | dropout _ _ _ => exact absurd rfl hD
      | loss f b => exact ⟨hs, rfl⟩
      | _ => exact ⟨hs, rfl⟩
  | trainingForward k p =>
    show Agree _ (live w.layers k >>= _) (live v.layers k >>= _)
    rcases h.pair k with ⟨h1, h2⟩ | ⟨m, o, l, h0, h1, h2, h3⟩
    · rw [h1, h2]; trivial
    rw [h1, h2, Exec.bind_ok, Exec.bind_ok, sim_value h, vw h3]
    refine agree_bind fun x hx => agree_bind fun r hr => agree_bind fun a ha => ?_
    rw [returned_ok ha] at hr
    have hd : isDrop a = isDrop o.obj.own := (isDrop_of_core (core_trainingForward hr)).trans (isDrop_setParams _ _)
    have hg : a.lastInputGradient = o.obj.own.lastInputGradient :=
      (grad_trainingForward hr).trans (buffers_setParams _ _).2
    have hp : p ∉ [Ref.out k] := by
      intro e
      exact hc.1 (List.mem_singleton.mp e)
    have hs : Sim (marks t (.trainingForward k p)) (w.put k o a (some p)) (v.put k l a (some x)) := by
      refine sim_point h h0 h1 h2 h3 [.out k] _ hd (Or.inl (by simp)) (Or.inr hg) hp hx ?_
      have : (m.touch [Ref.out k]).dropout = m.dropout := by unfold Mark.touch; split <;> rfl
      rw [this]
    cases a <;> exact ⟨hs, rfl⟩
  | backward k p =>
    show Agree _ (live w.layers k >>= _) (live v.layers k >>= _)
    rcases h.pair k with ⟨h1, h2⟩ | ⟨m, o, l, h0, h1, h2, h3⟩
    · rw [h1, h2]; trivial
    have hb : w.behind o = l.seen.getD [] := by
      unfold World.behind
      cases hl : o.last with
      | none => rw [h3.null hl]; rfl
      | some q =>
        obtain ⟨x, e1, e2⟩ := h3.same q hl
        simp only [e2 (hc.2 m h0), e1, Option.getD_some]
    rw [h1, h2, Exec.bind_ok, Exec.bind_ok, sim_value h, vw h3, hb]
    refine agree_bind fun x hx => agree_bind fun r hr => agree_bind fun a ha => ⟨?_, rfl⟩
    rw [returned_ok ha] at hr
    refine sim_keep h h0 h1 h2 h3 [.grad k] a ?_ (Or.inr ?_) (Or.inl (by simp))
    · exact ((isDrop_of_core (core_backward hr)).trans (isDrop_of_core (core_setLastInput _ _))).trans
        (isDrop_setParams _ _)
    · rw [out_backward hr]
      have e : ∀ b : AnyLayer, (b.setLastInput (l.seen.getD [])).lastOutput = b.lastOutput := by
        intro b; cases b <;> rfl
      exact (e _).trans (buffers_setParams o.obj.own (o.obj.addr.map w.heap.block)).1
  | lastInput k =>
    show Agree _ (live w.layers k >>= _) (live v.layers k >>= _)
    rcases h.pair k with ⟨h1, h2⟩ | ⟨m, o, l, h0, h1, h2, h3⟩
    · rw [h1, h2]; trivial
    rw [h1, h2, Exec.bind_ok, Exec.bind_ok]
    have ht : Sim (marks t (.lastInput k)) w v := by
      show Sim (t.map (Mark.touch [])) w v
      rw [touch_nil]; exact h
    cases hl : o.last with
    | none =>
      rw [h3.null hl]
      exact ⟨ht, rfl⟩
    | some q =>
      obtain ⟨x, e1, e2⟩ := h3.same q hl
      have hb : w.behind o = x := by
        unfold World.behind
        rw [hl]
        simp only [e2 (hc m h0)]
      rw [e1]
      simp only [hb, h3.size]
      split
      · exact ⟨ht, rfl⟩
      · trivial
  | train k eta =>
    show Agree _ (live w.layers k >>= _) (live v.layers k >>= _)
    rcases h.pair k with ⟨h1, h2⟩ | ⟨m, o, l, h0, h1, h2, h3⟩
    · rw [h1, h2]; trivial
    rw [h1, h2, Exec.bind_ok, Exec.bind_ok, vw h3]
    refine agree_bind fun x hx => ⟨?_, rfl⟩
    exact sim_keep h h0 h1 h2 h3 [] _ ((isDrop_train _ _ _).trans (isDrop_setParams _ _))
      (Or.inr ((buffers_train _ _ _).1.trans (buffers_setParams _ _).1))
      (Or.inr ((buffers_train _ _ _).2.trans (buffers_setParams _ _).2))
  | gradients k =>
    show Agree _ (live w.layers k >>= _) (live v.layers k >>= _)
    rcases h.pair k with ⟨h1, h2⟩ | ⟨m, o, l, h0, h1, h2, h3⟩
    · rw [h1, h2]; trivial
    rw [h1, h2, Exec.bind_ok, Exec.bind_ok]
    refine ⟨?_, by rw [h3.own]⟩
    show Sim (t.map (Mark.touch [])) w v
    rw [touch_nil]; exact h
  | params k =>
    show Agree _ (live w.layers k >>= _) (live v.layers k >>= _)
    rcases h.pair k with ⟨h1, h2⟩ | ⟨m, o, l, h0, h1, h2, h3⟩
    · rw [h1, h2]; trivial
    rw [h1, h2, Exec.bind_ok, Exec.bind_ok]
    refine ⟨?_, by rw [h3.addr, h.heap]⟩
    show Sim (t.map (Mark.touch [])) w v
    rw [touch_nil]; exact h

theorem run_same : ∀ (cs : List Op) {t : List Mark} {w : World} {v : Copies}, Sim t w v → LeavesInputs t cs →
    w.run cs = v.run cs := by
  intro cs
  induction cs with
  | nil => intro t w v _ _; rfl
  | cons c cs ih =>
    intro t w v h hc
    have ha := agree_step h c hc.1
    show (w.step c >>= fun r => r.1.run cs >>= fun seen => Exec.ok (r.2 ++ seen))
      = (v.step c >>= fun r => r.1.run cs >>= fun seen => Exec.ok (r.2 ++ seen))
    generalize w.step c = x at ha
    generalize v.step c = y at ha
    cases x <;> cases y <;> first | exact absurd ha id | skip
    · obtain ⟨h1, h2⟩ := ha
      rw [Exec.bind_ok, Exec.bind_ok, ih h1 hc.2, h2]
    · have : _ = _ := ha
      rw [this]; rfl
    · rfl

theorem sim_start (ls : List (AnyLayer × Nat)) : Sim (unmarked ls) (World.start ls) (Copies.start ls) := by
  have hs := (alloc_spec (ls.map Prod.fst) []).2.2
  have hlen := hs.length_eq
  rw [List.length_map] at hlen
  refine ⟨rfl, rfl, ?_, ?_, fun k => ?_⟩
  · simp [World.start, Copies.start]
  · simp [World.start, unmarked, hlen]
  · by_cases hk : k < ls.length
    · have e1 : ls[k]? = some ls[k] := List.getElem?_eq_getElem hk
      have e2 : (alloc [] (ls.map Prod.fst)).2[k]? = some ((alloc [] (ls.map Prod.fst)).2[k]'(by omega)) :=
        List.getElem?_eq_getElem (by omega)
      generalize (alloc [] (ls.map Prod.fst)).2[k]'(by omega) = o at e2
      have e3 : o.own = ls[k].1 := by
        have := List.forall₂_iff_get.mp hs
        have h4 := this.2 k (by omega) (by rw [List.length_map]; exact hk)
        rw [List.get_eq_getElem, List.get_eq_getElem] at h4
        rw [List.getElem?_eq_some_iff] at e2
        obtain ⟨_, e2⟩ := e2
        rw [e2, List.getElem_map] at h4
        exact h4.1
      refine Or.inr ⟨⟨match ls[k].1 with | .dropout _ _ _ => true | _ => false, none, false⟩,
        ⟨o, ls[k].2, none⟩, ⟨ls[k].1, o.addr, ls[k].2, none⟩, ?_, ?_, ?_, ?_⟩
      · unfold unmarked
        rw [List.getElem?_map, e1]; rfl
      · show live (List.zipWith _ _ _) k = _
        unfold live
        rw [List.getElem?_zipWith, e1, e2]
      · show live (List.zipWith _ _ _) k = _
        unfold live
        rw [List.getElem?_zipWith, e1, e2]
      · refine ⟨e3.symm, rfl, rfl, ?_, rfl, fun _ => rfl, fun p hp => by cases hp⟩
        show _ = isDrop o.own
        rw [e3]
        cases ls[k].1 <;> rfl
    · refine Or.inl ⟨?_, ?_⟩
      · show live (List.zipWith _ _ _) k = _
        unfold live
        rw [List.getElem?_eq_none (by simp; omega)]
      · show live (List.zipWith _ _ _) k = _
        unfold live
        rw [List.getElem?_eq_none (by simp; omega)]

/-! ### Training passes -/

theorem leaves_append : ∀ (a b : List Op) (t : List Mark),
    LeavesInputs t (a ++ b) ↔ LeavesInputs t a ∧ LeavesInputs (a.foldl marks t) b := by
  intro a
  induction a with
  | nil => intro b t; exact ⟨fun h => ⟨trivial, h⟩, fun h => h.2⟩
  | cons c a ih =>
    intro b t
    show Allowed t c ∧ LeavesInputs (marks t c) (a ++ b) ↔ (Allowed t c ∧ LeavesInputs (marks t c) a) ∧ _
    rw [ih b (marks t c), and_assoc]
    rfl

theorem leaves_free : ∀ (a : List Op) (t : List Mark), (∀ c ∈ a, Free c) → LeavesInputs t a := by
  intro a
  induction a with
  | nil => intro t _; trivial
  | cons c a ih =>
    intro t h
    refine ⟨?_, ih _ fun d hd => h d (List.mem_cons_of_mem _ hd)⟩
    have := h c (by simp)
    cases c <;> first | exact this | exact absurd this id

/-- The source of the `k`-th layer in a pass. -/
def src (x k : Nat) : Ref := if k = 0 then .vec x else .out (k - 1)

/-- The first `j` layers have been fed. -/
def Fed (x j : Nat) (t : List Mark) : Prop :=
  ∀ k, k < j → ∀ m, t[k]? = some m → m.source = some (src x k) ∧ m.changed = false

theorem fed_forward {x j : Nat} {t : List Mark} (h : Fed x j t) :
    Fed x (j + 1) (marks t (.trainingForward j (src x j))) := by
  intro k hk m hm
  simp only [marks, writes, List.getElem?_modify, List.getElem?_map] at hm
  by_cases hkj : j = k
  · subst hkj
    simp only [if_true] at hm
    cases ht : t[j]? with
    | none => rw [ht] at hm; cases hm
    | some m0 => rw [ht] at hm; cases hm; exact ⟨rfl, rfl⟩
  · simp only [if_neg hkj] at hm
    cases ht : t[k]? with
    | none => rw [ht] at hm; cases hm
    | some m0 =>
      rw [ht] at hm; cases hm
      obtain ⟨h1, h2⟩ := h k (by omega) m0 ht
      simp only [Mark.touch, h1, h2]
      refine ⟨trivial, ?_⟩
      have : src x k ≠ .out j := by
        unfold src
        split
        · intro e; cases e
        · intro e; cases e; omega
      simpa using this

theorem fed_backward {x j i : Nat} {p : Ref} {t : List Mark} (h : Fed x j t) : Fed x j (marks t (.backward i p)) := by
  intro k hk m hm
  simp only [marks, writes, List.getElem?_map] at hm
  cases ht : t[k]? with
  | none => rw [ht] at hm; cases hm
  | some m0 =>
    rw [ht] at hm; cases hm
    obtain ⟨h1, h2⟩ := h k hk m0 ht
    simp only [Mark.touch, h1, h2]
    refine ⟨trivial, ?_⟩
    have : src x k ≠ .grad i := by
      unfold src
      split <;> · intro e; cases e
    simpa using this

theorem leaves_feed (x : Nat) : ∀ (n : Nat) (t : List Mark),
    LeavesInputs t ((List.range n).map fun k => .trainingForward k (src x k)) ∧
    Fed x n (((List.range n).map fun k => Op.trainingForward k (src x k)).foldl marks t) := by
  intro n
  induction n with
  | zero => intro t; exact ⟨trivial, fun k hk => by omega⟩
  | succ n ih =>
    intro t
    obtain ⟨h1, h2⟩ := ih t
    rw [List.range_succ, List.map_append, leaves_append, List.foldl_append]
    refine ⟨⟨h1, ⟨?_, ?_⟩, trivial⟩, fed_forward h2⟩
    · unfold src
      split
      · intro e; cases e
      · intro e; injection e with e; omega
    · unfold src
      split <;> · intro e; cases e

theorem leaves_back (x n : Nat) (f : Nat → Ref) (hf : ∀ k, f k ≠ .grad k) : ∀ (ks : List Nat) (t : List Mark),
    (∀ k ∈ ks, k < n) → Fed x n t → LeavesInputs t (ks.map fun k => .backward k (f k)) := by
  intro ks
  induction ks with
  | nil => intro t _ _; trivial
  | cons k ks ih =>
    intro t hk h
    exact ⟨⟨hf k, fun m hm => (h k (hk k (by simp)) m hm).2⟩,
      ih _ (fun i hi => hk i (List.mem_cons_of_mem _ hi)) (fed_backward h)⟩

theorem leaves_pass (n x g : Nat) (t : List Mark) : LeavesInputs t (pass n x g) := by
  unfold pass
  rw [leaves_append]
  obtain ⟨h1, h2⟩ := leaves_feed x n t
  refine ⟨h1, leaves_back x n _ ?_ _ _ ?_ h2⟩
  · intro k
    split <;> · intro e; cases e
  · intro k hk
    simpa using hk

theorem leaves_passes (n : Nat) : ∀ (ps : List (List Op × Nat × Nat)) (t : List Mark),
    (∀ p ∈ ps, ∀ c ∈ p.1, Free c) →
    LeavesInputs t (ps.map fun p => p.1 ++ pass n p.2.1 p.2.2).flatten := by
  intro ps
  induction ps with
  | nil => intro t _; trivial
  | cons p ps ih =>
    intro t h
    rw [List.map_cons, List.flatten_cons, leaves_append, leaves_append]
    exact ⟨⟨leaves_free _ _ (h p (by simp)), leaves_pass _ _ _ _⟩, ih _ fun q hq => h q (List.mem_cons_of_mem _ hq)⟩

end

end Verif.Calls

import Verif.Proofs.Shift
import Verif.Proofs.ShapePredict
import Verif.Spec.BatchOrder

/-! What the steps of a batch add to the gradients. -/

namespace Verif

open Verif.Spec

theorem plus_diff {u v : List ℝ} (h : v.length = u.length) : plus (fun k => vec v k - vec u k) u = v := by
  apply List.ext_getElem?
  intro j
  rw [plus_getElem?]
  by_cases hj : j < u.length
  · have hj' : j < v.length := by omega
    rw [List.getElem?_eq_getElem hj, List.getElem?_eq_getElem hj']
    simp [vec, hj, hj']
  · rw [List.getElem?_eq_none (by omega), List.getElem?_eq_none (by omega)]
    rfl

theorem vec_plus {d : Nat → ℝ} {u : List ℝ} {k : Nat} (hk : k < u.length) : vec (plus d u) k = vec u k + d k := by
  unfold vec
  rw [List.getD_eq_getElem?_getD, List.getD_eq_getElem?_getD, plus_getElem?, List.getElem?_eq_getElem hk]
  rfl

namespace Net

open Verif.Graph

noncomputable section

theorem frame_simple {a : AnyLayer} (h : Simple a) : frame a = some ((extra a).1.map List.length, (extra a).2) := by
  cases a <;> first | exact h.elim | rfl

theorem draws_simple {a : AnyLayer} (h : Simple a) : draws a = none := by
  cases a <;> first | exact h.elim | rfl

theorem off_bridge {a b : AnyLayer} (hs : Simple a) (hc : core b = core a) (hf : frame b = frame a) :
    Off (fun blk k => entry b.paramGrads blk k - entry a.paramGrads blk k) a (a.setParamGrads b.paramGrads) ∧
      Ess (a.setParamGrads b.paramGrads) b ∧ frame (a.setParamGrads b.paramGrads) = frame a := by
  have hsb := simple_of_core hc.symm hs
  have hf' := hf
  rw [frame_simple hs, frame_simple hsb] at hf'
  simp only [Option.some.injEq, Prod.mk.injEq] at hf'
  have hl : b.paramGrads.map List.length = a.paramGrads.map List.length := hf'.1
  obtain ⟨g1, g2⟩ := frame_setParamGrads (a := a) (gs := b.paramGrads) hl
  have hcc : core (a.setParamGrads b.paramGrads) = core a := core_setParamGrads _ _
  have hsc := simple_of_core hcc.symm hs
  refine ⟨?_, ⟨hcc.trans hc.symm, ?_, by rw [draws_simple hsc, draws_simple hsb]⟩, g1⟩
  · cases a with
    | dense l =>
      obtain ⟨w, c, e⟩ := two_of_length (ps := b.paramGrads) (by simpa [AnyLayer.paramGrads] using congrArg List.length hl)
      rw [e] at hl ⊢
      simp [AnyLayer.paramGrads] at hl
      show AnyLayer.dense _ = AnyLayer.dense _
      congr 1
      have e1 : plus (fun k => entry [w, c] 0 k - entry [l.grads.weight, l.grads.bias] 0 k) l.grads.weight = w :=
        plus_diff hl.1
      have e2 : plus (fun k => entry [w, c] 1 k - entry [l.grads.weight, l.grads.bias] 1 k) l.grads.bias = c :=
        plus_diff hl.2
      have : l.grads.plus (fun blk k => entry [w, c] blk k - entry (AnyLayer.dense l).paramGrads blk k)
          = ⟨l.grads.input, w, c⟩ := by
        unfold Dense.Grads.plus
        congr 1
      rw [this]
    | conv l =>
      obtain ⟨w, c, e⟩ := two_of_length (ps := b.paramGrads) (by simpa [AnyLayer.paramGrads] using congrArg List.length hl)
      rw [e] at hl ⊢
      simp [AnyLayer.paramGrads] at hl
      refine ⟨c, hl.2, ?_⟩
      have e1 : plus (fun k => entry [w, c] 0 k - entry [l.weightGrads, l.biasGrads] 0 k) l.weightGrads = w :=
        plus_diff hl.1
      show AnyLayer.conv _ = AnyLayer.conv _
      congr 1
      have e1' : plus (fun k => entry [w, c] 0 k - entry (AnyLayer.conv l).paramGrads 0 k) l.weightGrads = w := e1
      rw [e1']
    | rnn => exact hs.elim
    | dropout => exact hs.elim
    | _ => rfl
  · refine Prod.ext g2 ?_
    have := g1.trans hf.symm
    rw [frame_simple hsc, frame_simple hsb] at this
    simp only [Option.some.injEq, Prod.mk.injEq] at this
    exact this.2

theorem off_entry {d : Nat → Nat → ℝ} {a c : AnyLayer} (h : Off d a c) {blk k : Nat} (hS : Simple a)
    (hl : Learned a blk) (hk : k < (a.paramGrads.getD blk []).length) :
    entry c.paramGrads blk k = entry a.paramGrads blk k + d blk k := by
  cases a with
  | dense l =>
    have h : c = _ := h
    subst h
    match blk, hk with
    | 0, hk => exact vec_plus hk
    | 1, hk => exact vec_plus hk
    | b + 2, hk => simp [AnyLayer.paramGrads] at hk
  | conv l =>
    obtain ⟨w, _, rfl⟩ := h
    have hl : blk = 0 := hl
    subst hl
    exact vec_plus hk
  | rnn f f1 l => exact hS.elim
  | _ => simp [AnyLayer.paramGrads] at hk

theorem learned_core {a b : AnyLayer} (hc : core b = core a) {blk : Nat} (h : Learned a blk) : Learned b blk := by
  cases a <;> cases b <;> simp only [core, reduceCtorEq] at hc <;> exact h

/-- Models with the same parameters and buffers of the same lengths. -/
structure Alike (m m' : Net) : Prop where
  core : m'.layers.map core = m.layers.map core
  frame : m'.layers.map frame = m.layers.map frame

theorem Alike.refl (m : Net) : Alike m m := ⟨rfl, rfl⟩

theorem Alike.trans {a b c : Net} (h : Alike a b) (h' : Alike b c) : Alike a c :=
  ⟨h'.core.trans h.core, h'.frame.trans h.frame⟩

theorem Alike.symm {a b : Net} (h : Alike a b) : Alike b a := ⟨h.core.symm, h.frame.symm⟩

theorem Alike.step {m m' : Net} {x t : List ℝ} {e : Option String} (h : m.step x t = .ok (m', e)) : Alike m m' :=
  ⟨(step_same h).2, step_frame h⟩

theorem gradAt_of {m : Net} {i : Nat} {a : AnyLayer} (h : m.layers[i]? = some a) (b k : Nat) :
    gradAt m i b k = entry a.paramGrads b k := by
  unfold gradAt
  rw [List.getD_eq_getElem?_getD, List.getElem?_map, h]
  rfl

theorem gradAt_none {m : Net} {i : Nat} (h : m.layers[i]? = none) (b k : Nat) : gradAt m i b k = 0 := by
  unfold gradAt
  rw [List.getD_eq_getElem?_getD, List.getElem?_map, h]
  simp [entry, vec]

theorem holds_alike {p : Layout} {i : Nat} {a b : AnyLayer} (hs : Simple a) (h : p.Holds i a) (hc : Net.core b = Net.core a)
    (hf : Net.frame b = Net.frame a) : p.Holds i b := by
  cases hq : p.loss i with
  | some lf => exact (Layout.holds_loss hq).mpr (lossFit_of ((Layout.holds_loss hq).mp h) hc hf)
  | none =>
    rw [Layout.holds_layer hq] at h ⊢
    have hz := h.sized fun _ => by cases a <;> first | exact hs.elim | trivial
    rcases hz.cases with ⟨mx, raw, l, rfl, _⟩ | ⟨h1, _⟩
    · exact hs.elim
    · exact .inl (sized_of hz h1 hc hf)

variable {net : Net} {n : Nat}

/-- A step adds the same amounts to whatever gradients have been accumulated. -/
theorem KeptAs.step_add (hs : Shaped net n) (hn : NonRecurrent net) {m1 m2 : Net} (h1 : KeptAs net n m1)
    (h2 : KeptAs net n m2) (hS : ∀ a ∈ m1.layers, Simple a) (ha : Alike m1 m2) {x t : List ℝ}
    (hx : Suitable net n (.step x t)) :
    ∃ m1' m2', m1.step x t = .ok (m1', none) ∧ m2.step x t = .ok (m2', none) ∧ KeptAs net n m1' ∧ KeptAs net n m2' ∧
      ∀ i b k, LearnedAt m1 i b → gradAt m2' i b k - gradAt m2 i b k = gradAt m1' i b k - gradAt m1 i b k := by
  set cs : List AnyLayer := List.zipWith (fun a b => a.setParamGrads b.paramGrads) m1.layers m2.layers with hcs
  set d : Nat → Nat → Nat → ℝ := fun i b k => gradAt m2 i b k - gradAt m1 i b k with hd
  have hlen : m1.layers.length = m2.layers.length := h1.length.trans h2.length.symm
  have pair : ∀ (i : Nat) (a : AnyLayer), m1.layers[i]? = some a → ∃ b, m2.layers[i]? = some b ∧
      Net.core b = Net.core a ∧ Net.frame b = Net.frame a ∧ cs[i]? = some (a.setParamGrads b.paramGrads) := by
    intro i a hi
    obtain ⟨b, e1, e2⟩ := getElem?_map_eq ha.core.symm hi
    obtain ⟨b', e3, e4⟩ := getElem?_map_eq ha.frame.symm hi
    rw [e1] at e3
    cases e3
    refine ⟨b, e1, e2.symm, e4.symm, ?_⟩
    rw [hcs, List.getElem?_zipWith, hi, e1]
  have hclen : cs.length = m1.layers.length := by rw [hcs, List.length_zipWith, hlen, Nat.min_self]
  have lift : ∀ (i : Nat) (c : AnyLayer), cs[i]? = some c → ∃ a, m1.layers[i]? = some a := by
    intro i c hc
    have := (List.getElem?_eq_some_iff.mp hc).1
    exact ⟨_, List.getElem?_eq_getElem (hclen ▸ this)⟩
  have hoff : LsOff d m1.layers cs := by
    refine ⟨hclen.symm, ?_⟩
    intro i a c hi hc
    obtain ⟨b, e1, e2, e3, e4⟩ := pair i a hi
    rw [e4] at hc
    cases hc
    have := (off_bridge (hS a (List.mem_of_getElem? hi)) e2 e3).1
    have e : d i = fun blk k => entry b.paramGrads blk k - entry a.paramGrads blk k := by
      funext blk k
      rw [hd]
      dsimp only
      rw [gradAt_of e1, gradAt_of hi]
    rw [e]
    exact this
  have hess : List.Forall₂ Ess cs m2.layers := by
    refine forall₂_of (hclen.trans hlen) ?_
    intro i c b hc hb
    obtain ⟨a, hi⟩ := lift i c hc
    obtain ⟨b', e1, e2, e3, e4⟩ := pair i a hi
    rw [e4] at hc
    rw [e1] at hb
    cases hc
    cases hb
    exact (off_bridge (hS a (List.mem_of_getElem? hi)) e2 e3).2.1
  have hk : KeptAs net n ⟨m1.graph, cs⟩ := by
    refine ⟨?_, h1.graph, hclen.trans h1.length⟩
    intro i c hc
    obtain ⟨a, hi⟩ := lift i c hc
    obtain ⟨b', e1, e2, e3, e4⟩ := pair i a hi
    have hc' : cs[i]? = some c := hc
    rw [e4] at hc'
    cases hc'
    exact holds_alike (hS a (List.mem_of_getElem? hi)) (h1.holds i a hi) (core_setParamGrads _ _)
      (off_bridge (hS a (List.mem_of_getElem? hi)) e2 e3).2.2
  obtain ⟨c', m2', ec, e2, _, k2, hess'⟩ := hk.step_same hs hn h2 hess hx
  obtain ⟨m1', e1, k1⟩ := h1.step hs hx
  have hr := step_off (n := m1) (n' := ⟨m1.graph, cs⟩) rfl hoff x t
  rw [e1, ec] at hr
  obtain ⟨hr, _⟩ := hr
  dsimp only at hr
  have hg := forall₂_map hess' fun a b e => e.paramGrads
  refine ⟨m1', m2', e1, e2, k1, k2, ?_⟩
  intro i b k hL
  have s1 := Alike.step e1
  have s2 := Alike.step e2
  cases hi : m1'.layers[i]? with
  | none =>
    have f1 : m1.layers[i]? = none := by
      rw [List.getElem?_eq_none_iff] at hi ⊢; rw [h1.length, ← k1.length]; exact hi
    have f2 : m2.layers[i]? = none := by
      rw [List.getElem?_eq_none_iff] at hi ⊢; rw [h2.length, ← k1.length]; exact hi
    have f3 : m2'.layers[i]? = none := by
      rw [List.getElem?_eq_none_iff] at hi ⊢; rw [k2.length, ← k1.length]; exact hi
    rw [gradAt_none hi, gradAt_none f1, gradAt_none f2, gradAt_none f3]
  | some a' =>
    obtain ⟨a, f1, f2⟩ := getElem?_map_eq s1.core hi
    obtain ⟨a0, f1', f2'⟩ := getElem?_map_eq s1.frame hi
    rw [f1] at f1'
    cases f1'
    obtain ⟨b2, g1, g2, g3, _⟩ := pair i a f1
    obtain ⟨b2', g4, g5⟩ := getElem?_map_eq s2.frame.symm g1
    have hSa := hS a (List.mem_of_getElem? f1)
    have hSa' := simple_of_core f2.symm hSa
    have hSb := simple_of_core g2.symm hSa
    obtain ⟨b2'', g6, g7⟩ := getElem?_map_eq s2.core.symm g1
    rw [g4] at g6
    cases g6
    have hSb' := simple_of_core g7 hSb
    obtain ⟨c2, q1, q2⟩ := getElem?_map_eq hg.symm g4
    have hO := hr.off i a' c2 hi q1
    rw [gradAt_of f1, gradAt_of g1, gradAt_of g4, gradAt_of hi, q2]
    have hlens : ∀ {u v : AnyLayer}, Simple u → Simple v → Net.frame u = Net.frame v →
        (u.paramGrads.getD b []).length = (v.paramGrads.getD b []).length := by
      intro u v hu hv e
      rw [frame_simple hu, frame_simple hv] at e
      simp only [Option.some.injEq, Prod.mk.injEq] at e
      have e1 : u.paramGrads.map List.length = v.paramGrads.map List.length := e.1
      have := congrArg (fun l => l.getD b 0) e1
      simp only [List.getD_eq_getElem?_getD, List.getElem?_map] at this
      rw [List.getD_eq_getElem?_getD, List.getD_eq_getElem?_getD]
      cases hu' : u.paramGrads[b]? <;> cases hv' : v.paramGrads[b]? <;> rw [hu', hv'] at this <;> simpa using this
    by_cases hk : k < (a'.paramGrads.getD b []).length
    · rw [off_entry hO hSa' (learned_core f2 (hL a f1)) hk, hd]
      dsimp only
      rw [gradAt_of f1, gradAt_of g1]
      ring
    · have z : ∀ u : AnyLayer, (u.paramGrads.getD b []).length = (a'.paramGrads.getD b []).length →
          entry u.paramGrads b k = 0 := by
        intro u hu
        unfold entry vec
        rw [List.getD_eq_getElem?_getD, List.getElem?_eq_none (by omega)]
        rfl
      rw [z a (hlens hSa hSa' f2'.symm), z a' rfl, z b2 (hlens hSb hSa' (g3.trans f2'.symm)), ← q2,
        z b2' (hlens hSb' hSa' (g5.symm.trans (g3.trans f2'.symm)))]

theorem learnedAt_alike {m m' : Net} (h : Alike m m') {i b : Nat} (hl : LearnedAt m i b) : LearnedAt m' i b := by
  intro a' ha'
  obtain ⟨a, h1, h2⟩ := getElem?_map_eq h.core ha'
  exact learned_core h2 (hl a h1)

theorem simple_alike {m m' : Net} (h : Alike m m') (hS : ∀ a ∈ m.layers, Simple a) : ∀ a ∈ m'.layers, Simple a := by
  intro a' ha'
  obtain ⟨i, hi⟩ := List.getElem?_of_mem ha'
  obtain ⟨a, h1, h2⟩ := getElem?_map_eq h.core hi
  exact simple_of_core h2.symm (hS a (List.mem_of_getElem? h1))

theorem session_append {σ : Type} (opt : σ → ℝ → ℝ → σ × ℝ) (cs' : List UserCall) : ∀ (cs : List UserCall) (s : σ × Net),
    session opt (cs ++ cs') s = (session opt cs s >>= fun r => session opt cs' r.1 >>= fun q => .ok (q.1, r.2 ++ q.2))
  | [], s => by
    show session opt cs' s = (session opt cs' s >>= fun q => .ok (q.1, [] ++ q.2))
    cases session opt cs' s <;> rfl
  | .predict x :: cs, s => by
    show (s.2.predict x >>= _) = ((s.2.predict x >>= _) >>= _)
    cases s.2.predict x with
    | ok r => exact session_append opt cs' cs _
    | _ => rfl
  | .resetScore :: cs, s => session_append opt cs' cs _
  | .step x t :: cs, s => by
    show (s.2.step x t >>= _) = ((s.2.step x t >>= _) >>= _)
    cases s.2.step x t with
    | ok r =>
      rw [Exec.bind_ok, Exec.bind_ok]
      dsimp only [List.append_eq]
      rw [session_append opt cs' cs]
      cases session opt cs (s.1, r.1) with
      | ok q =>
        rw [Exec.bind_ok, Exec.bind_ok, Exec.bind_ok]
        cases session opt cs' q.1 <;> rfl
      | _ => rfl
    | _ => rfl
  | .train :: cs, s => by
    have ih := session_append opt cs' cs (s.2.train opt s.1).1
    show (match (s.2.train opt s.1).2 with
      | .ok () => do
        let q ← session opt (cs ++ cs') (s.2.train opt s.1).1
        .ok (q.1, none :: q.2)
      | .throw m => do
        let q ← session opt (cs ++ cs') (s.2.train opt s.1).1
        .ok (q.1, some m :: q.2)
      | .ub => .ub) = ((match (s.2.train opt s.1).2 with
      | .ok () => do
        let q ← session opt cs (s.2.train opt s.1).1
        .ok (q.1, none :: q.2)
      | .throw m => do
        let q ← session opt cs (s.2.train opt s.1).1
        .ok (q.1, some m :: q.2)
      | .ub => .ub) >>= _)
    rw [ih]
    cases (s.2.train opt s.1).2 with
    | ok u =>
      dsimp only
      cases session opt cs (s.2.train opt s.1).1 with
      | ok q =>
        rw [Exec.bind_ok, Exec.bind_ok, Exec.bind_ok]
        cases session opt cs' q.1 <;> rfl
      | _ => rfl
    | throw u =>
      dsimp only
      cases session opt cs (s.2.train opt s.1).1 with
      | ok q =>
        rw [Exec.bind_ok, Exec.bind_ok, Exec.bind_ok]
        cases session opt cs' q.1 <;> rfl
      | _ => rfl
    | ub => rfl

/-- The steps of a list of samples add up, whatever has been accumulated before. -/
theorem steps_sum (hs : Shaped net n) (hn : NonRecurrent net) {m0 : Net} (h0 : KeptAs net n m0)
    (hS : ∀ a ∈ m0.layers, Simple a) {σ : Type} (opt : σ → ℝ → ℝ → σ × ℝ) (s : σ) :
    ∀ (ss : List (List ℝ × List ℝ)) (m : Net), KeptAs net n m → Alike m0 m →
      (∀ c ∈ stepCalls ss, Suitable net n c) →
      ∃ m', session opt (stepCalls ss) (s, m) = .ok ((s, m'), List.replicate ss.length none) ∧ KeptAs net n m' ∧
        Alike m0 m' ∧ ∀ i b k, LearnedAt m0 i b →
          gradAt m' i b k = gradAt m i b k + (ss.map fun x => contribution m0 x i b k).sum
  | [], m, h, ha, _ => ⟨m, rfl, h, ha, fun i b k _ => by simp⟩
  | x :: ss, m, h, ha, hc => by
    obtain ⟨m0', m1, e0, e1, _, k1, hadd⟩ := h0.step_add hs hn h hS ha (hc (.step x.1 x.2) (by simp [stepCalls]))
    obtain ⟨m', e2, k2, k3, k4⟩ := steps_sum hs hn h0 hS opt s ss m1 k1 (ha.trans (Alike.step e1))
      fun c hc' => hc c (by unfold stepCalls at hc' ⊢; exact List.mem_cons_of_mem _ hc')
    refine ⟨m', ?_, k2, k3, ?_⟩
    · show (m.step x.1 x.2 >>= _) = _
      rw [e1, Exec.bind_ok]
      show (session opt (stepCalls ss) (s, m1) >>= _) = _
      rw [e2]
      rfl
    · intro i b k hl
      have hx : contribution m0 x i b k = gradAt m0' i b k - gradAt m0 i b k := by
        unfold contribution
        rw [e0]
      rw [k4 i b k hl, List.map_cons, List.sum_cons, hx, ← hadd i b k hl]
      ring

theorem ess_alike {m m' : Net} (h : List.Forall₂ Ess m.layers m'.layers) : Alike m m' :=
  ⟨(forall₂_map h fun _ _ e => e.1).symm, (forall₂_map h fun _ _ e => frame_of e.1 e.2.1).symm⟩

theorem blocks_ext {u v : List (List ℝ)} (hl : u.map List.length = v.map List.length)
    (h : ∀ b k, entry u b k = entry v b k) : u = v := by
  have hlen : u.length = v.length := by simpa using congrArg List.length hl
  apply List.ext_getElem hlen
  intro b h1 h2
  have e : u[b].length = v[b].length := by
    have := congrArg (fun l => l[b]?) hl
    simpa [h1, h2] using this
  apply List.ext_getElem e
  intro k k1 k2
  have := h b k
  unfold entry vec at this
  simpa [List.getD_eq_getElem?_getD, h1, h2, k1, k2] using this

/-- Models with the same parameters and the same gradients behave alike in training. -/
theorem ess_of_grads {m m' : Net} (hS : ∀ a ∈ m.layers, Simple a) (h : Alike m m')
    (hg : ∀ i b k, gradAt m' i b k = gradAt m i b k) : List.Forall₂ Ess m.layers m'.layers := by
  refine forall₂_of (by simpa using (congrArg List.length h.core).symm) ?_
  intro i a b ha hb
  obtain ⟨a1, e1, e2⟩ := getElem?_map_eq h.core hb
  rw [ha] at e1
  cases e1
  obtain ⟨a1, e1, e3⟩ := getElem?_map_eq h.frame hb
  rw [ha] at e1
  cases e1
  have hSa := hS a (List.mem_of_getElem? ha)
  have hSb := simple_of_core e2.symm hSa
  rw [frame_simple hSa, frame_simple hSb] at e3
  simp only [Option.some.injEq, Prod.mk.injEq] at e3
  refine ⟨e2.symm, Prod.ext (blocks_ext e3.1.symm fun blk k => ?_) e3.2.symm, by rw [draws_simple hSa, draws_simple hSb]⟩
  have := hg i blk k
  rw [gradAt_of ha, gradAt_of hb] at this
  exact this.symm


theorem learnedAt_shape {m m' : Net} (h : m'.layers.map shape = m.layers.map shape) {i b : Nat}
    (hl : LearnedAt m i b) : LearnedAt m' i b := by
  intro a' ha'
  obtain ⟨a, h1, h2⟩ := getElem?_map_eq h ha'
  refine learned_core (core_of_shape h2.symm) ?_
  have := hl a h1
  cases a with
  | conv l => unfold AnyLayer.setParams; split <;> simp_all [Learned]
  | dense l => unfold AnyLayer.setParams; split <;> simp_all [Learned]
  | rnn f f1 l => unfold AnyLayer.setParams; split <;> simp_all [Learned]
  | _ => trivial

/-- The same batches with their samples in another order. -/
theorem batches_same (hs : Shaped net n) (hn : NonRecurrent net) {σ : Type} (opt : σ → ℝ → ℝ → σ × ℝ)
    {bs bs' : List (List (List ℝ × List ℝ))} (hp : List.Forall₂ List.Perm bs bs') :
    ∀ (s : σ) (m1 m2 : Net), KeptAs net n m1 → KeptAs net n m2 → (∀ a ∈ m1.layers, Simple a) →
      (∀ i b, LearnedAt m1 i b) → List.Forall₂ Ess m1.layers m2.layers → (∀ c ∈ trainingCalls bs, Suitable net n c) →
      ∃ s' m1' m2' es, session opt (trainingCalls bs) (s, m1) = .ok ((s', m1'), es) ∧
        session opt (trainingCalls bs') (s, m2) = .ok ((s', m2'), es) ∧ List.Forall₂ Ess m1'.layers m2'.layers := by
  induction hp with
  | nil => exact fun s m1 m2 _ _ _ _ he _ => ⟨s, m1, m2, [], rfl, rfl, he⟩
  | @cons b b' bs bs' hb _ ih =>
    intro s m1 m2 h1 h2 hS hL he hc
    have hc1 : ∀ c ∈ stepCalls b, Suitable net n c := fun c h => hc c (by
      unfold trainingCalls; rw [List.flatMap_cons]; simp [h])
    have hc1' : ∀ c ∈ stepCalls b', Suitable net n c := fun c h => hc1 c (by
      unfold stepCalls at h ⊢; exact (hb.map _).mem_iff.mpr h)
    have hc2 : ∀ c ∈ trainingCalls bs, Suitable net n c := fun c h => hc c (by
      unfold trainingCalls at h ⊢; rw [List.flatMap_cons]; exact List.mem_append_right _ h)
    have ha := ess_alike he
    obtain ⟨u1, e1, k1, a1, g1⟩ := steps_sum hs hn h1 hS opt s b m1 h1 (.refl m1) hc1
    obtain ⟨u2, e2, k2, a2, g2⟩ := steps_sum hs hn h1 hS opt s b' m2 h2 ha hc1'
    have he0 : ∀ i blk k, gradAt m2 i blk k = gradAt m1 i blk k := by
      intro i blk k
      unfold gradAt
      rw [forall₂_map he fun a b e => e.paramGrads]
    have heu : List.Forall₂ Ess u1.layers u2.layers := by
      refine ess_of_grads (simple_alike a1 hS) (a1.symm.trans a2) fun i blk k => ?_
      rw [g1 i blk k (hL i blk), g2 i blk k (hL i blk), he0, (hb.map _).sum_eq]
    obtain ⟨s1, v1, f1, q1⟩ := k1.train opt s
    obtain ⟨s2, v2, f2, q2⟩ := k2.train opt s
    obtain ⟨r1, r2, r3⟩ := trainLayers_rel opt heu s
    have r1 : (u1.train opt s).1.1 = (u2.train opt s).1.1 := r1
    have r3 : List.Forall₂ Ess (u1.train opt s).1.2.layers (u2.train opt s).1.2.layers := r3
    have hsh : v1.layers.map shape = m1.layers.map shape := by
      have t1 : (u1.train opt s).1.2.layers.map shape = u1.layers.map shape := shape_trainLayers opt u1.layers s
      rw [f1] at t1
      exact t1.trans (shapes_of_cores a1.core)
    rw [f1, f2] at r1 r3
    dsimp only at r1 r3
    subst r1
    obtain ⟨s', w1, w2, es, d1, d2, d3⟩ := ih s1 v1 v2 q1 q2 (simple_of_shapes hsh hS) (fun i b => learnedAt_shape hsh (hL i b)) r3 hc2
    refine ⟨s', w1, w2, List.replicate b.length none ++ (none :: es), ?_, ?_, d3⟩
    · show session opt ((stepCalls b ++ [.train]) ++ trainingCalls bs) (s, m1) = _
      rw [List.append_assoc, session_append, e1, Exec.bind_ok]
      show (session opt (.train :: trainingCalls bs) (s, u1) >>= _) = _
      unfold session
      dsimp only
      rw [f1]
      dsimp only
      rw [d1]
      rfl
    · show session opt ((stepCalls b' ++ [.train]) ++ trainingCalls bs') (s, m2) = _
      rw [List.append_assoc, session_append, e2, Exec.bind_ok]
      show (session opt (.train :: trainingCalls bs') (s, u2) >>= _) = _
      unfold session
      dsimp only
      rw [f2]
      dsimp only
      rw [d2, hb.length_eq]
      rfl

theorem params_of_cores {as bs : List AnyLayer} (h : as.map core = bs.map core) :
    as.map AnyLayer.params = bs.map AnyLayer.params := by
  apply List.ext_getElem?
  intro i
  have := congrArg (fun l => l[i]?) h
  simp only [List.getElem?_map] at this ⊢
  cases e1 : as[i]? <;> cases e2 : bs[i]? <;> rw [e1, e2] at this <;>
    simp only [Option.map_some, Option.map_none, reduceCtorEq, Option.some.injEq] at this ⊢
  exact params_of_core this

theorem session_kept (hs : Shaped net n) {σ : Type} (opt : σ → ℝ → ℝ → σ × ℝ) : ∀ (cs : List UserCall) (s : σ)
    (m : Net), KeptAs net n m → (∀ c ∈ cs, Suitable net n c) →
    ∃ s' m' es, session opt cs (s, m) = .ok ((s', m'), es) ∧ KeptAs net n m' ∧
      m'.layers.map shape = m.layers.map shape
  | [], s, m, h, _ => ⟨s, m, [], rfl, h, rfl⟩
  | c :: cs, s, m, h, hc => by
    have ih := fun s' m' h' => session_kept hs opt cs s' m' h' fun d hd => hc d (by simp [hd])
    have hc0 := hc c (by simp)
    cases c with
    | predict x =>
      obtain ⟨m', y, e, k⟩ := h.predict hs hc0
      obtain ⟨s', a, es, f1, f2, f3⟩ := ih s m' k
      refine ⟨s', a, es, ?_, f2, f3.trans (shapes_of_cores (predict_same e).2)⟩
      show (m.predict x >>= _) = _
      rw [e, Exec.bind_ok]
      exact f1
    | resetScore =>
      obtain ⟨s', a, es, f1, f2, f3⟩ := ih s m.resetScore h.resetScore
      exact ⟨s', a, es, f1, f2, f3.trans (shapes_of_cores (resetScore_same m).2)⟩
    | step x t =>
      obtain ⟨m', e, k⟩ := h.step hs hc0
      obtain ⟨s', a, es, f1, f2, f3⟩ := ih s m' k
      refine ⟨s', a, none :: es, ?_, f2, f3.trans (shapes_of_cores (Net.step_same e).2)⟩
      show (m.step x t >>= _) = _
      rw [e, Exec.bind_ok]
      dsimp only
      rw [f1]
      rfl
    | train =>
      obtain ⟨s1, m', e, k⟩ := h.train opt s
      obtain ⟨s', a, es, f1, f2, f3⟩ := ih s1 m' k
      have hsh : (m.train opt s).1.2.layers.map shape = m.layers.map shape := shape_trainLayers opt m.layers s
      rw [e] at hsh
      refine ⟨s', a, none :: es, ?_, f2, f3.trans hsh⟩
      unfold session
      dsimp only
      rw [e]
      dsimp only
      rw [f1]
      rfl

/-! ### Data sets -/

/-- A call of a training run as a call of the user. -/
def userCall (rows : Nat → List ℝ × List ℝ) : TrainCall → UserCall
  | .reset => .resetScore
  | .step i => .step (rows i).1 (rows i).2
  | .train => .train

theorem perform_session {σ : Type} (opt : σ → ℝ → ℝ → σ × ℝ) {d : Data.Dataset ℝ} {rows : Nat → List ℝ × List ℝ}
    (hs : Shaped net n) : ∀ (cs : List TrainCall) (s : σ) (m : Net), KeptAs net n m →
    (∀ c ∈ cs, ∀ i, c = .step i → d.input i = .ok (rows i).1 ∧ d.label i = .ok (rows i).2) →
    (∀ c ∈ cs.map (userCall rows), Suitable net n c) →
    ∃ r es, performAll (Training.modelOps opt d) cs (s, m) = .ok r ∧
      session opt (cs.map (userCall rows)) (s, m) = .ok (r, es)
  | [], s, m, _, _, _ => ⟨(s, m), [], rfl, rfl⟩
  | c :: cs, s, m, h, hr, hc => by
    have ih := fun s' m' h' => perform_session opt hs cs s' m' h' (fun c hc => hr c (by simp [hc]))
      fun c hc' => hc c (by rw [List.map_cons]; exact List.mem_cons_of_mem _ hc')
    have hc0 := hc _ (by rw [List.map_cons]; exact List.mem_cons_self)
    cases c with
    | reset => exact ih s _ h.resetScore
    | step i =>
      obtain ⟨e1, e2⟩ := hr (.step i) (by simp) i rfl
      obtain ⟨m', e3, k⟩ := h.step hs hc0
      obtain ⟨r, es, f1, f2⟩ := ih s m' k
      refine ⟨r, none :: es, ?_, ?_⟩
      · show ((d.input i >>= fun x => _) >>= _) = _
        rw [e1, Exec.bind_ok, e2, Exec.bind_ok, e3]
        exact f1
      · show (m.step (rows i).1 (rows i).2 >>= _) = _
        rw [e3, Exec.bind_ok]
        dsimp only
        rw [f2]
        rfl
    | train =>
      obtain ⟨s1, m', e, k⟩ := h.train opt s
      obtain ⟨r, es, f1, f2⟩ := ih s1 m' k
      refine ⟨r, none :: es, ?_, ?_⟩
      · show (((m.train opt s).2 >>= fun _ => _) >>= _) = _
        rw [e]
        exact f1
      · show session opt (.train :: cs.map (userCall rows)) (s, m) = _
        unfold session
        dsimp only
        rw [e]
        dsimp only
        rw [f2]
        rfl

/-- The batches of a training run. -/
def runBatches (rows : Nat → List ℝ × List ℝ) (k b epochs : Nat) : List (List (List ℝ × List ℝ)) :=
  (List.replicate epochs ((List.range (batchCount k b)).map fun j => (batchSamples k b j).map rows)).flatten

theorem trainCalls_learns (rows : Nat → List ℝ × List ℝ) (k b epochs : Nat) :
    ((trainCalls k b epochs).map (userCall rows)).filter UserCall.learns = trainingCalls (runBatches rows k b epochs) := by
  have one : ∀ js : List Nat, (((js.flatMap fun k' => TrainCall.reset :: ((batchSamples k b k').map .step ++ [.train])).map
      (userCall rows)).filter UserCall.learns) = trainingCalls (js.map fun j => (batchSamples k b j).map rows) := by
    intro js
    induction js with
    | nil => rfl
    | cons j js ih =>
      rw [List.flatMap_cons, List.map_append, List.filter_append, ih, List.map_cons]
      show _ = (stepCalls ((batchSamples k b j).map rows) ++ [.train]) ++ trainingCalls _
      congr 1
      rw [List.map_append, List.filter_cons_of_neg (by simp [userCall, UserCall.learns]), List.filter_append]
      congr 1
      unfold stepCalls
      rw [List.map_map, List.map_map, List.filter_eq_self.mpr]
      · rfl
      · intro a ha
        obtain ⟨i, _, rfl⟩ := List.mem_map.mp ha
        rfl
  induction epochs with
  | zero => rfl
  | succ e ih =>
    unfold trainCalls runBatches at ih ⊢
    rw [List.replicate_succ, List.flatten_cons, List.map_append, List.filter_append, ih, List.replicate_succ,
      List.flatten_cons]
    show _ = List.flatMap _ (_ ++ _)
    rw [List.flatMap_append]
    congr 1
    exact one _

theorem mem_batchSamples {k b j i : Nat} (hb : 1 ≤ b) : i ∈ batchSamples k b j ↔ i < k ∧ i / b = j := by
  unfold batchSamples
  rw [List.mem_iff_getElem]
  constructor
  · rintro ⟨t, ht, rfl⟩
    simp only [List.length_take, List.length_drop, List.length_range, Nat.lt_min] at ht
    simp only [List.getElem_take, List.getElem_drop, List.getElem_range]
    refine ⟨by omega, ?_⟩
    rw [Nat.add_comm, Nat.add_mul_div_right _ _ hb, Nat.div_eq_of_lt ht.1, Nat.zero_add]
  · rintro ⟨h1, rfl⟩
    have h2 := Nat.div_add_mod i b
    have h3 := Nat.mod_lt i hb
    have h4 : i / b * b = b * (i / b) := Nat.mul_comm _ _
    refine ⟨i % b, ?_, ?_⟩
    · simp only [List.length_take, List.length_drop, List.length_range, Nat.lt_min]
      omega
    · simp only [List.getElem_take, List.getElem_drop, List.getElem_range]
      omega

theorem batchSamples_perm {k b j : Nat} (hb : 1 ≤ b) {π : Nat → Nat} (h1 : ∀ i, i < k → π i < k)
    (h2 : ∀ i i', i < k → i' < k → π i = π i' → i = i') (h3 : ∀ i, i < k → π i / b = i / b) :
    List.Perm (batchSamples k b j) ((batchSamples k b j).map π) := by
  have hn : (batchSamples k b j).Nodup := ((List.nodup_range).drop).take
  have hm : ((batchSamples k b j).map π).Nodup := by
    refine (List.nodup_map_iff_inj_on hn).mpr ?_
    intro x hx y hy
    exact h2 x y ((mem_batchSamples hb).mp hx).1 ((mem_batchSamples hb).mp hy).1
  refine (List.Subperm.perm_of_length_le (List.subperm_of_subset hm ?_) (by simp)).symm
  intro x hx
  obtain ⟨i, hi, rfl⟩ := List.mem_map.mp hx
  obtain ⟨g1, g2⟩ := (mem_batchSamples hb).mp hi
  exact (mem_batchSamples hb).mpr ⟨h1 i g1, (h3 i g1).trans g2⟩

theorem runBatches_perm {k b epochs : Nat} (hb : 1 ≤ b) {π : Nat → Nat} (h1 : ∀ i, i < k → π i < k)
    (h2 : ∀ i i', i < k → i' < k → π i = π i' → i = i') (h3 : ∀ i, i < k → π i / b = i / b)
    {rows rows' : Nat → List ℝ × List ℝ} (hr : ∀ i, i < k → rows' i = rows (π i)) :
    List.Forall₂ List.Perm (runBatches rows k b epochs) (runBatches rows' k b epochs) := by
  have one : ∀ js : List Nat, List.Forall₂ List.Perm (js.map fun j => (batchSamples k b j).map rows)
      (js.map fun j => (batchSamples k b j).map rows') := by
    intro js
    induction js with
    | nil => exact .nil
    | cons j js ih =>
      refine .cons ?_ ih
      have e : (batchSamples k b j).map rows' = ((batchSamples k b j).map π).map rows := by
        rw [List.map_map]
        exact List.map_congr_left fun i hi => hr i ((mem_batchSamples hb).mp hi).1
      show List.Perm ((batchSamples k b j).map rows) ((batchSamples k b j).map rows')
      rw [e]
      exact (batchSamples_perm hb h1 h2 h3).map rows
  unfold runBatches
  induction epochs with
  | zero => exact .nil
  | succ e ih =>
    rw [List.replicate_succ, List.flatten_cons, List.replicate_succ, List.flatten_cons]
    exact List.rel_append (one _) ih

end

end Net

end Verif

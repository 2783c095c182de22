import Verif.Proofs.Optimizer
import Mathlib.Data.Set.Function
import Mathlib.Tactic.NormNum
import Mathlib.Tactic.IntervalCases
import Mathlib.Tactic.Positivity
import Mathlib.Algebra.BigOperators.Fin
import Mathlib.Algebra.BigOperators.Intervals

/-
Properties C24 (gradient descent), C25 (Adam), C26 (train_check) and C27 (enumeration of the
learnable values).

`PSized l` says that the parameter and gradient buffers have the lengths which the constructors give
them (weights, biases, ...).  `l.kind.paramCount` is `param_count()`, `readAt l.kind l.params i` is
`param(i)` and `readAt l.kind l.grads i` is `gradient(i)`.
-/

namespace Verif.Props
open Verif.Spec Verif.Opt

/-- Buffers as the constructors make them. -/
def PSized {α : Type} (l : PLayer α) : Prop :=
  l.params.map List.length = l.kind.blockSizes ∧ l.grads.map List.length = l.kind.blockSizes

/-! ### C27 -/

/-- The stored values: block `b` (weights, biases, ...) and offset in it. -/
def cells {α : Type} (blocks : List (List α)) : Set (Nat × Nat) :=
  { c | ∃ block, blocks[c.1]? = some block ∧ c.2 < block.length }

/-- Value in a cell. -/
def cellValue {α : Type} (blocks : List (List α)) (c : Nat × Nat) : Option α :=
  (blocks[c.1]?).bind (·[c.2]?)

/-- The indices below `param_count()` correspond one to one to the stored values, `param(i)` and
`gradient(i)` are the cells with the same address in the parameter and in the gradient buffers,
writing through them changes that cell only, and every other index throws. -/
theorem C27_enumeration {α : Type} (l : PLayer α) (hl : PSized l) :
    (∃ loc : Nat → Nat × Nat,
      Set.BijOn loc { i | i < l.kind.paramCount } (cells l.params) ∧
      Set.BijOn loc { i | i < l.kind.paramCount } (cells l.grads) ∧
      ∀ i, i < l.kind.paramCount →
        (∃ p, cellValue l.params (loc i) = some p ∧ readAt l.kind l.params i = .ok p) ∧
        (∃ g, cellValue l.grads (loc i) = some g ∧ readAt l.kind l.grads i = .ok g) ∧
        ∀ v, ∃ P G, writeAt l.kind l.params i v = .ok P ∧ writeAt l.kind l.grads i v = .ok G ∧
          ∀ c, (cellValue P c = if c = loc i then some v else cellValue l.params c) ∧
            (cellValue G c = if c = loc i then some v else cellValue l.grads c)) ∧
    ∀ i, l.kind.paramCount ≤ i → ∀ v, (∃ m, readAt l.kind l.params i = .throw m) ∧
      (∃ m, readAt l.kind l.grads i = .throw m) ∧
      (∃ m, writeAt l.kind l.params i v = .throw m) ∧
      (∃ m, writeAt l.kind l.grads i v = .throw m) := by
  obtain ⟨hp, hg⟩ := hl
  constructor
  · have hloc : ∃ loc : Nat → Nat × Nat, ∀ i, i < l.kind.paramCount →
        locate l.kind l.kind.blockSizes i = .ok (loc i) ∧
        ∃ n, l.kind.blockSizes[(loc i).1]? = some n ∧ (loc i).2 < n ∧
          position l.kind.blockSizes (loc i).1 (loc i).2 = i := by
      have : ∀ i, ∃ c : Nat × Nat, i < l.kind.paramCount →
          locate l.kind l.kind.blockSizes i = .ok c ∧
          ∃ n, l.kind.blockSizes[c.1]? = some n ∧ c.2 < n ∧
            position l.kind.blockSizes c.1 c.2 = i := by
        intro i
        by_cases hi : i < l.kind.paramCount
        · obtain ⟨b, off, n, h1, h2, h3, h4⟩ := locate_spec l.kind hi
          exact ⟨(b, off), fun _ => ⟨h1, n, h2, h3, h4⟩⟩
        · exact ⟨(0, 0), fun h => absurd h hi⟩
      exact ⟨fun i => (this i).choose, fun i hi => (this i).choose_spec hi⟩
    obtain ⟨loc, hloc⟩ := hloc
    have bij : ∀ blocks : List (List α), Fits l.kind blocks →
        Set.BijOn loc { i | i < l.kind.paramCount } (cells blocks) := by
      intro blocks hb
      refine ⟨?_, ?_, ?_⟩
      · intro i hi
        obtain ⟨_, n, h1, h2, _⟩ := hloc i hi
        obtain ⟨block, h3, h4⟩ := block_of_fits hb h1
        exact ⟨block, h3, by omega⟩
      · intro i hi j hj hij
        obtain ⟨_, _, _, _, h1⟩ := hloc i hi
        obtain ⟨_, _, _, _, h2⟩ := hloc j hj
        rw [← h1, ← h2, hij]
      · rintro ⟨b, off⟩ ⟨block, h1, h2⟩
        have hs : l.kind.blockSizes[b]? = some block.length := by
          rw [← hb, List.getElem?_map]
          rw [show blocks[b]? = some block from h1]
          rfl
        have hlt := position_lt _ hs h2
        rw [← paramCount_eq] at hlt
        refine ⟨position l.kind.blockSizes b off, hlt, ?_⟩
        obtain ⟨_, n, h3, h4, h5⟩ := hloc _ hlt
        have := position_inj _ h3 h4 hs h2 h5
        exact Prod.ext this.1 this.2
    refine ⟨loc, bij _ hp, bij _ hg, ?_⟩
    intro i hi
    obtain ⟨h1, n, h2, h3, _⟩ := hloc i hi
    have rdc : ∀ blocks : List (List α), Fits l.kind blocks →
        ∃ p, cellValue blocks (loc i) = some p ∧ readAt l.kind blocks i = .ok p := by
      intro blocks hb
      obtain ⟨block, h4, h5⟩ := block_of_fits hb h2
      have h6 : (loc i).2 < block.length := by omega
      refine ⟨block[(loc i).2], by simp [cellValue, h4, h6], ?_⟩
      unfold readAt
      rw [show blocks.map List.length = l.kind.blockSizes from hb, h1, Exec.bind_ok]
      simp only [rd_of_some h4, Exec.bind_ok, rd_ok h6]
    have wrc : ∀ (blocks : List (List α)) (v : α), Fits l.kind blocks →
        ∃ P, writeAt l.kind blocks i v = .ok P ∧
          ∀ c, cellValue P c = if c = loc i then some v else cellValue blocks c := by
      intro blocks v hb
      obtain ⟨block, h4, h5⟩ := block_of_fits hb h2
      have h6 : (loc i).2 < block.length := by omega
      have h7 : (loc i).1 < blocks.length := (List.getElem?_eq_some_iff.mp h4).1
      refine ⟨blocks.set (loc i).1 (block.set (loc i).2 v), ?_, ?_⟩
      · unfold writeAt
        rw [show blocks.map List.length = l.kind.blockSizes from hb, h1, Exec.bind_ok]
        simp only [rd_of_some h4, Exec.bind_ok, wr_ok h6, wr_ok h7]
      · intro c
        unfold cellValue
        by_cases hc1 : c.1 = (loc i).1
        · rw [hc1, List.getElem?_set_self h7, h4]
          by_cases hc2 : c.2 = (loc i).2
          · rw [if_pos (Prod.ext hc1 hc2), hc2]
            simp [h6]
          · rw [if_neg (fun h => hc2 (by rw [h]))]
            simp only [Option.bind_some]
            rw [List.getElem?_set_ne (Ne.symm hc2)]
        · rw [if_neg (fun h => hc1 (by rw [h])), List.getElem?_set_ne (Ne.symm hc1)]
    refine ⟨rdc _ hp, rdc _ hg, ?_⟩
    intro v
    obtain ⟨P, hP1, hP2⟩ := wrc _ v hp
    obtain ⟨G, hG1, hG2⟩ := wrc _ v hg
    exact ⟨P, G, hP1, hG1, fun c => ⟨hP2 c, hG2 c⟩⟩
  · intro i hi v
    exact ⟨⟨_, readAt_throw hi⟩, ⟨_, readAt_throw hi⟩, ⟨_, writeAt_throw v hi⟩, ⟨_, writeAt_throw v hi⟩⟩

/-- `param_count()` is the number of stored weights and biases. -/
theorem C27_count {α : Type} (l : PLayer α) (hl : PSized l) :
    (l.params.map List.length).sum = l.kind.paramCount ∧
      (l.grads.map List.length).sum = l.kind.paramCount := by
  rw [hl.1, hl.2, paramCount_eq]; exact ⟨rfl, rfl⟩

/-- A recurrent layer with 1 input, 2 hidden units and 1 output has `PSized` buffers and 11
parameters. -/
example : PSized (⟨.rnn 1 2 1, [[1, 2], [3, 4, 5, 6], [7, 8], [9, 10], [11]],
    [[0, 0], [0, 0, 0, 0], [0, 0], [0, 0], [0]]⟩ : PLayer Nat) ∧
    (Kind.rnn 1 2 1).paramCount = 11 ∧
    readAt (.rnn 1 2 1) [[1, 2], [3, 4, 5, 6], [7, 8], [9, 10], [11]] 8 = .ok 9 :=
  ⟨⟨rfl, rfl⟩, rfl, rfl⟩

/-! ### C24 -/

/-- `optimizer.train(layer)` with gradient descent returns normally; every parameter `i` becomes
`p - eta * g` where `p` and `g` were `param(i)` and `gradient(i)`; every gradient becomes 0. -/
theorem C24_gd_train (eta : ℝ) (l : PLayer ℝ) (hl : PSized l) :
    ∃ l', trainSelf (gdStep eta) () l = ⟨((), l'), .ok ()⟩ ∧ l'.kind = l.kind ∧ PSized l' ∧
      ∀ i, i < l.kind.paramCount → ∃ p g, readAt l.kind l.params i = .ok p ∧
        readAt l.kind l.grads i = .ok g ∧
        readAt l'.kind l'.params i = .ok (p - eta * g) ∧ readAt l'.kind l'.grads i = .ok 0 := by
  obtain ⟨l', h1, h2, h3, h4, h5, h6⟩ := trainSelf_spec (gdStep eta) l hl.1 hl.2 ()
  refine ⟨l', h1, h2, ⟨by rw [h2]; exact h3, by rw [h2]; exact h4⟩, ?_⟩
  intro i hi
  refine ⟨_, _, rd_flat_vec hl.1 hi, rd_flat_vec hl.2 hi, ?_, ?_⟩
  · rw [h2, rd_flat_vec h3 hi, h5 i hi]; rfl
  · rw [h2, rd_flat_vec h4 hi, h6 i hi]

/-- The same for two layers with the same number of parameters: the gradients of the first are applied
to the parameters of the second and cleared; the parameters of the first and the gradients of the
second stay. -/
theorem C24_gd_train_pair (eta : ℝ) (f t : PLayer ℝ) (hf : PSized f) (ht : PSized t)
    (hc : f.kind.paramCount = t.kind.paramCount) :
    ∃ f' t', train (gdStep eta) () f t = ⟨((), f', t'), .ok ()⟩ ∧ PSized f' ∧ PSized t' ∧
      f'.kind = f.kind ∧ t'.kind = t.kind ∧ f'.params = f.params ∧ t'.grads = t.grads ∧
      ∀ i, i < t.kind.paramCount → ∃ p g, readAt t.kind t.params i = .ok p ∧
        readAt f.kind f.grads i = .ok g ∧
        readAt t.kind t'.params i = .ok (p - eta * g) ∧ readAt f.kind f'.grads i = .ok 0 := by
  obtain ⟨P, G, h1, h3, h4, h5, h6⟩ := train_spec (gdStep eta) f t hc ht.1 hf.2 ()
  refine ⟨_, _, h1, ⟨hf.1, h4⟩, ⟨h3, ht.2⟩, rfl, rfl, rfl, rfl, ?_⟩
  intro i hi
  refine ⟨_, _, rd_flat_vec ht.1 hi, rd_flat_vec hf.2 (by omega), ?_, ?_⟩
  · rw [rd_flat_vec h3 hi, h5 i hi]; rfl
  · rw [rd_flat_vec h4 (by omega), h6 i hi]

/-- What a step of a history adds to the gradient of parameter `i`. -/
def contribution (i : Nat) : Op ℝ → ℝ
  | .accumulate j v => if j = i then v else 0
  | .train => 0

/-- The step is a call of `train`. -/
def isTrain : Op ℝ → Bool
  | .accumulate _ _ => false
  | .train => true

theorem applyOp_acc (eta : ℝ) (l : PLayer ℝ) (hl : PSized l) (j : Nat) (v : ℝ) :
    PSized (applyOp eta l (.accumulate j v)) ∧ (applyOp eta l (.accumulate j v)).kind = l.kind ∧
    (applyOp eta l (.accumulate j v)).params = l.params ∧
    ∀ i, i < l.kind.paramCount → vec (applyOp eta l (.accumulate j v)).grads.flatten i
      = vec l.grads.flatten i + if j = i then v else 0 := by
  by_cases hj : j < l.kind.paramCount
  · obtain ⟨G, h1, h2, h3⟩ := writeAt_eq hl.2 (vec l.grads.flatten j + v) hj
    have : applyOp eta l (.accumulate j v) = { l with grads := G } := by
      unfold applyOp
      dsimp only
      rw [rd_flat_vec hl.2 hj, Exec.bind_ok, h1]
    rw [this]
    refine ⟨⟨hl.1, h2⟩, rfl, rfl, ?_⟩
    intro i hi
    show vec G.flatten i = _
    rw [h3, vec_set (by rw [fits_length hl.2]; exact hj)]
    by_cases h : i = j
    · subst h; simp
    · rw [if_neg h, if_neg (Ne.symm h), add_zero]
  · have : applyOp eta l (.accumulate j v) = l := by
      unfold applyOp
      dsimp only
      rw [readAt_throw (by omega)]
      rfl
    rw [this]
    refine ⟨hl, rfl, rfl, ?_⟩
    intro i hi
    rw [if_neg (by omega), add_zero]

theorem applyOp_train (eta : ℝ) (l : PLayer ℝ) (hl : PSized l) :
    PSized (applyOp eta l .train) ∧ (applyOp eta l .train).kind = l.kind ∧
    (∀ i, i < l.kind.paramCount → vec (applyOp eta l .train).params.flatten i
      = vec l.params.flatten i - eta * vec l.grads.flatten i) ∧
    ∀ i, i < l.kind.paramCount → vec (applyOp eta l .train).grads.flatten i = 0 := by
  obtain ⟨l', h1, h2, h3, h4, h5, h6⟩ := trainSelf_spec (gdStep eta) l hl.1 hl.2 ()
  have : applyOp eta l .train = l' := by unfold applyOp; rw [h1]
  rw [this]
  exact ⟨⟨by rw [h2]; exact h3, by rw [h2]; exact h4⟩, h2, h5, h6⟩

/-- Over any history every quantity "parameter - eta * gradient" moves by the contributions only. -/
theorem history_invariant (eta : ℝ) (ops : List (Op ℝ)) : ∀ (l : PLayer ℝ), PSized l →
    PSized (ops.foldl (applyOp eta) l) ∧ (ops.foldl (applyOp eta) l).kind = l.kind ∧
    ∀ i, i < l.kind.paramCount →
      vec (ops.foldl (applyOp eta) l).params.flatten i
          - eta * vec (ops.foldl (applyOp eta) l).grads.flatten i
        = vec l.params.flatten i - eta * vec l.grads.flatten i
          - eta * (ops.map (contribution i)).sum := by
  induction ops with
  | nil => intro l hl; exact ⟨hl, rfl, fun i _ => by simp⟩
  | cons op ops ih =>
    intro l hl
    cases op with
    | accumulate j v =>
      obtain ⟨a1, a2, a3, a4⟩ := applyOp_acc eta l hl j v
      obtain ⟨b1, b2, b3⟩ := ih _ a1
      refine ⟨b1, by rw [List.foldl_cons, b2, a2], ?_⟩
      intro i hi
      rw [List.foldl_cons, b3 i (by rw [a2]; exact hi), a3, a4 i hi, List.map_cons, List.sum_cons]
      show _ = vec l.params.flatten i - eta * vec l.grads.flatten i
        - eta * ((if j = i then v else 0) + _)
      ring
    | train =>
      obtain ⟨a1, a2, a3, a4⟩ := applyOp_train eta l hl
      obtain ⟨b1, b2, b3⟩ := ih _ a1
      refine ⟨b1, by rw [List.foldl_cons, b2, a2], ?_⟩
      intro i hi
      rw [List.foldl_cons, b3 i (by rw [a2]; exact hi), a3 i hi, a4 i hi, List.map_cons,
        List.sum_cons]
      show _ = vec l.params.flatten i - eta * vec l.grads.flatten i - eta * (0 + _)
      ring

theorem history_no_train (eta : ℝ) (ops : List (Op ℝ)) : ∀ (l : PLayer ℝ), PSized l →
    (∀ op ∈ ops, isTrain op = false) → (ops.foldl (applyOp eta) l).params = l.params := by
  induction ops with
  | nil => intro l _ _; rfl
  | cons op ops ih =>
    intro l hl h
    cases op with
    | accumulate j v =>
      obtain ⟨a1, a2, a3, a4⟩ := applyOp_acc eta l hl j v
      rw [List.foldl_cons, ih _ a1 (fun o ho => h o (List.mem_cons_of_mem _ ho)), a3]
    | train => exact absurd (h _ List.mem_cons_self) (by simp [isTrain])

/-- After any history of gradient accumulations and `train` calls on a layer whose gradients start at
0, a parameter equals its initial value minus `eta` times the sum of everything accumulated for it
before the last `train`. -/
theorem C24_gd_history (eta : ℝ) (l : PLayer ℝ) (hl : PSized l)
    (h0 : ∀ i, i < l.kind.paramCount → readAt l.kind l.grads i = .ok 0)
    (before after : List (Op ℝ)) (hlast : ∀ op ∈ after, isTrain op = false)
    (i : Nat) (hi : i < l.kind.paramCount) :
    ∃ p, readAt l.kind l.params i = .ok p ∧
      readAt l.kind ((before ++ .train :: after).foldl (applyOp eta) l).params i
        = .ok (p - eta * (before.map (contribution i)).sum) := by
  refine ⟨_, rd_flat_vec hl.1 hi, ?_⟩
  obtain ⟨a1, a2, a3⟩ := history_invariant eta before l hl
  obtain ⟨b1, b2, b3, b4⟩ := applyOp_train eta _ a1
  rw [List.foldl_append, List.foldl_cons, history_no_train eta after _ b1 hlast]
  rw [← show (applyOp eta (before.foldl (applyOp eta) l) .train).kind = l.kind from b2.trans a2,
    rd_flat_vec b1.1 (by rw [b2, a2]; exact hi), b3 i (by rw [a2]; exact hi), a3 i hi]
  have := rd_flat_vec hl.2 hi
  rw [h0 i hi] at this
  injection this with h
  rw [← h]
  congr 1
  ring

/-- Without a `train` call the parameters stay. -/
theorem C24_gd_history_untrained (eta : ℝ) (l : PLayer ℝ) (hl : PSized l) (ops : List (Op ℝ))
    (hno : ∀ op ∈ ops, isTrain op = false) :
    (ops.foldl (applyOp eta) l).params = l.params := history_no_train eta ops l hl hno

/-- A dense layer 1 → 1 with gradients 0 meets the hypotheses. -/
example : let l : PLayer ℝ := ⟨.dense 1 1, [[2], [3]], [[0], [0]]⟩
    PSized l ∧ l.kind.paramCount = 2 ∧
      (∀ i, i < l.kind.paramCount → readAt l.kind l.grads i = .ok 0) := by
  refine ⟨⟨rfl, rfl⟩, rfl, ?_⟩
  intro i hi
  have : i < 2 := hi
  interval_cases i <;> rfl

/-! ### C26 -/

/-- `train_check` throws iff the parameter counts differ; then nothing has changed.  Otherwise it ends
normally, exactly as `train` does. -/
theorem C26_train_check {σ : Type} (step : σ → ℝ → ℝ → σ × ℝ) (s : σ) (f t : PLayer ℝ)
    (hf : PSized f) (ht : PSized t) :
    ((∃ m, (trainCheck step s f t).status = .throw m) ↔ f.kind.paramCount ≠ t.kind.paramCount) ∧
    (f.kind.paramCount ≠ t.kind.paramCount → (trainCheck step s f t).state = (s, f, t)) ∧
    (f.kind.paramCount = t.kind.paramCount → trainCheck step s f t = train step s f t ∧
      (trainCheck step s f t).status = .ok ()) := by
  by_cases h : f.kind.paramCount = t.kind.paramCount
  · have he : trainCheck step s f t = train step s f t := by
      unfold trainCheck; rw [if_neg (by simpa using h)]
    obtain ⟨P, G, h1, _⟩ := train_spec step f t h ht.1 hf.2 s
    have hok : (trainCheck step s f t).status = .ok () := by rw [he, h1]
    refine ⟨⟨?_, fun hn => absurd h hn⟩, fun hn => absurd h hn, fun _ => ⟨he, hok⟩⟩
    rintro ⟨m, hm⟩
    rw [hok] at hm
    cases hm
  · have he : trainCheck step s f t = ⟨(s, f, t), .throw "Layers have different amount of params"⟩ := by
      unfold trainCheck; rw [if_pos h]
    exact ⟨⟨fun _ => h, fun _ => ⟨_, by rw [he]⟩⟩, fun _ => by rw [he], fun hn => absurd hn h⟩

/-- The check matters: plain `train` from a layer with fewer parameters than the target throws in the
middle, after it has changed the target. -/
theorem C26_unchecked_train_is_not_atomic :
    let f : PLayer ℝ := ⟨.dense 0 1, [[], [0]], [[], [1]]⟩
    let t : PLayer ℝ := ⟨.dense 1 1, [[5], [5]], [[0], [0]]⟩
    PSized f ∧ PSized t ∧ (∃ m, (train (gdStep 1) () f t).status = .throw m) ∧
      (train (gdStep 1) () f t).state.2.2 ≠ t := by
  refine ⟨⟨rfl, rfl⟩, ⟨rfl, rfl⟩, ⟨_, rfl⟩, ?_⟩
  intro h
  have : ([[5 - 1 * 1], [5]] : List (List ℝ)) = [[5], [5]] := congrArg PLayer.params h
  simp at this

/-! ### C25 -/

/-- Adam's state after the gradients in `gs` were visited one by one. -/
def AdamAfter (b1 b2 : ℝ) (gs : List ℝ) (s : Adam) : Prop :=
  s.m = adamM b1 gs ∧ s.v = adamV b2 gs ∧ s.t = gs.length + 1

theorem adamStep_after (eta b1 b2 eps : ℝ) (gs : List ℝ) (s : Adam) (h : AdamAfter b1 b2 gs s)
    (p g : ℝ) : AdamAfter b1 b2 (gs ++ [g]) (adamStep eta b1 b2 eps s p g).1 ∧
      (adamStep eta b1 b2 eps s p g).2 = p - adamDelta eta b1 b2 eps (gs ++ [g]) := by
  obtain ⟨h1, h2, h3⟩ := h
  unfold AdamAfter adamStep adamDelta adamM adamV
  simp only [List.foldl_append, List.foldl_cons, List.foldl_nil, List.length_append,
    List.length_singleton]
  rw [h1, h2, h3]
  refine ⟨⟨rfl, by rw [sq]; rfl, rfl⟩, ?_⟩
  rw [sq]
  rfl

theorem take_succ_vec (g : List ℝ) {i : Nat} (h : i < g.length) :
    g.take (i + 1) = g.take i ++ [vec g i] := by
  rw [List.take_succ_eq_append_getElem h]
  simp [vec, h]

theorem optAt_after (eta b1 b2 eps : ℝ) (gs : List ℝ) (s : Adam) (h : AdamAfter b1 b2 gs s)
    (p : Nat → ℝ) (g : List ℝ) : ∀ i, i ≤ g.length →
    AdamAfter b1 b2 (gs ++ g.take i) (optAt (adamStep eta b1 b2 eps) s p (vec g) i) := by
  intro i
  induction i with
  | zero => intro _; rw [List.take_zero, List.append_nil]; exact h
  | succ i ih =>
    intro hi
    have := (adamStep_after eta b1 b2 eps _ _ (ih (by omega)) (p i) (vec g i)).1
    have e : g.take (i + 1) = g.take i ++ [vec g i] := by
      exact take_succ_vec _ (by omega)
    rw [e, ← List.append_assoc]
    exact this

/-- A history of training steps: each step fills the gradient buffers with the given blocks and calls
`train(layer)`. -/
noncomputable def adamRun (eta b1 b2 eps : ℝ) (hist : List (List (List ℝ))) (s : Adam)
    (l : PLayer ℝ) : Adam × PLayer ℝ :=
  hist.foldl (fun a G => (trainSelf (adamStep eta b1 b2 eps) a.1 { a.2 with grads := G }).state) (s, l)

/-- The gradients visited by the first `c` training steps of a history, in visiting order. -/
def visited (hist : List (List (List ℝ))) (c : Nat) : List ℝ := (hist.take c).flatten.flatten

theorem adamRun_spec (eta b1 b2 eps : ℝ) (l : PLayer ℝ) (hl : PSized l) (s : Adam) (gs : List ℝ)
    (hs : AdamAfter b1 b2 gs s) (hist : List (List (List ℝ)))
    (hh : ∀ G ∈ hist, G.map List.length = l.kind.blockSizes) :
    AdamAfter b1 b2 (gs ++ hist.flatten.flatten) (adamRun eta b1 b2 eps hist s l).1 ∧
    PSized (adamRun eta b1 b2 eps hist s l).2 ∧ (adamRun eta b1 b2 eps hist s l).2.kind = l.kind ∧
    ∀ i, i < l.kind.paramCount →
      vec (adamRun eta b1 b2 eps hist s l).2.params.flatten i = vec l.params.flatten i
        - ((List.range hist.length).map fun c => adamDelta eta b1 b2 eps
            (gs ++ visited hist c ++ (hist.getD c []).flatten.take (i + 1))).sum := by
  induction hist using List.reverseRecOn with
  | nil => exact ⟨by simpa [adamRun] using hs, hl, rfl, fun i _ => by simp [adamRun]⟩
  | append_singleton hist G ih =>
    obtain ⟨h1, h2, h3, h4⟩ := ih (fun G hG => hh G (by simp [hG]))
    have hG : G.map List.length = l.kind.blockSizes := hh G (by simp)
    have hrun : adamRun eta b1 b2 eps (hist ++ [G]) s l
        = (trainSelf (adamStep eta b1 b2 eps) (adamRun eta b1 b2 eps hist s l).1
            { (adamRun eta b1 b2 eps hist s l).2 with grads := G }).state := by
      unfold adamRun; rw [List.foldl_append]; rfl
    set a := adamRun eta b1 b2 eps hist s l with ha
    have hfit : Fits a.2.kind G := by rw [h3]; exact hG
    obtain ⟨l', t1, t2, t3, t4, t5, t6⟩ := trainSelf_spec (adamStep eta b1 b2 eps)
      { a.2 with grads := G } h2.1 hfit a.1
    have hlen : G.flatten.length = l.kind.paramCount := fits_length hG
    have hopt := optAt_after eta b1 b2 eps _ _ h1 (vec a.2.params.flatten) G.flatten
    rw [hrun, t1]
    dsimp only at t2 t3 t4 t5 t6 ⊢
    rw [h3] at t2 t3 t4 t5 t6 ⊢
    refine ⟨?_, ⟨by rw [t2]; exact t3, by rw [t2]; exact t4⟩, t2, ?_⟩
    · have := hopt l.kind.paramCount (by omega)
      rw [List.take_of_length_le (by omega)] at this
      simpa [List.append_assoc] using this
    · intro i hi
      rw [t5 i hi, (adamStep_after eta b1 b2 eps _ _ (hopt i (by omega)) _ _).2, h4 i hi,
        List.length_append, List.length_singleton, List.range_succ, List.map_append, List.sum_append,
        List.map_singleton, List.sum_singleton]
      have e1 : (hist ++ [G]).getD hist.length [] = G := by simp
      have e2 : visited (hist ++ [G]) hist.length = hist.flatten.flatten := by
        unfold visited; rw [List.take_append_of_le_length (le_refl _), List.take_length]
      have e3 : G.flatten.take (i + 1) = G.flatten.take i ++ [vec G.flatten i] := by
        exact take_succ_vec _ (by omega)
      rw [e1, e2, e3]
      have e4 : ∀ c ∈ List.range hist.length,
          adamDelta eta b1 b2 eps (gs ++ visited (hist ++ [G]) c
            ++ ((hist ++ [G]).getD c []).flatten.take (i + 1))
          = adamDelta eta b1 b2 eps (gs ++ visited hist c ++ (hist.getD c []).flatten.take (i + 1)) := by
        intro c hc
        have hc' : c < hist.length := List.mem_range.mp hc
        have v : visited (hist ++ [G]) c = visited hist c := by
          unfold visited; rw [List.take_append_of_le_length (by omega)]
        have w : (hist ++ [G]).getD c [] = hist.getD c [] := by
          rw [List.getD_eq_getElem?_getD, List.getD_eq_getElem?_getD,
            List.getElem?_append_left hc']
        rw [v, w]
      rw [List.map_congr_left e4, List.append_assoc]
      ring

/-- What the code does: there is one pair of moments and one step counter, and they run through the
gradients of all parameters in visiting order.  After any history the change of parameter `i` is the
sum over the training steps `c` of the Adam update computed from the whole stream of gradients visited
up to parameter `i` of step `c`; the final moments are those of the whole stream. -/
theorem C25_adam_actual (eta b1 b2 eps : ℝ) (l : PLayer ℝ) (hl : PSized l)
    (hist : List (List (List ℝ))) (hh : ∀ G ∈ hist, G.map List.length = l.kind.blockSizes) :
    ((adamRun eta b1 b2 eps hist Adam.init l).1.m = adamM b1 hist.flatten.flatten ∧
      (adamRun eta b1 b2 eps hist Adam.init l).1.v = adamV b2 hist.flatten.flatten ∧
      (adamRun eta b1 b2 eps hist Adam.init l).1.t = hist.length * l.kind.paramCount + 1) ∧
    ∀ i, i < l.kind.paramCount → ∃ p, readAt l.kind l.params i = .ok p ∧
      readAt l.kind (adamRun eta b1 b2 eps hist Adam.init l).2.params i
        = .ok (p - ((List.range hist.length).map fun c => adamDelta eta b1 b2 eps
            (visited hist c ++ (hist.getD c []).flatten.take (i + 1))).sum) := by
  have key := adamRun_spec eta b1 b2 eps l hl Adam.init [] ⟨rfl, rfl, rfl⟩ hist hh
  obtain ⟨⟨m1, m2, m3⟩, k2, k3, k4⟩ := key
  rw [List.nil_append] at m1 m2 m3
  refine ⟨⟨m1, m2, ?_⟩, ?_⟩
  · rw [m3]
    congr 1
    clear k2 k3 k4 m1 m2 m3
    induction hist with
    | nil => simp
    | cons G hist ih =>
      have hG : G.flatten.length = l.kind.paramCount := fits_length (hh G (by simp))
      rw [List.flatten_cons, List.flatten_append, List.length_append, hG,
        ih (fun G hG => hh G (by simp [hG])), List.length_cons]
      ring
  · intro i hi
    refine ⟨_, rd_flat_vec hl.1 hi, ?_⟩
    rw [← k3, rd_flat_vec k2.1 (by rw [k3]; exact hi), k4 i hi]
    simp only [List.nil_append]

/-- For a layer with exactly one parameter the code is the documented algorithm: over any history of
gradients `gs` the parameter moves by the Adam updates of its own gradients, with step numbers
1, 2, 3, ....  Missing for the full property: layers with more than one parameter, for which it is
false (`C25_adam_per_parameter_refuted`). -/
theorem C25_adam_partial (eta b1 b2 eps : ℝ) (l : PLayer ℝ) (hl : PSized l)
    (hone : l.kind.paramCount = 1) (hist : List (List (List ℝ)))
    (hh : ∀ G ∈ hist, G.map List.length = l.kind.blockSizes) :
    ∃ p, readAt l.kind l.params 0 = .ok p ∧
      readAt l.kind (adamRun eta b1 b2 eps hist Adam.init l).2.params 0
        = .ok (p - ((List.range hist.length).map fun c => adamDelta eta b1 b2 eps
            ((hist.flatten.flatten).take (c + 1))).sum) := by
  have h := (C25_adam_actual eta b1 b2 eps l hl hist hh).2
  obtain ⟨p, h1, h2⟩ := h 0 (by omega)
  refine ⟨p, h1, ?_⟩
  rw [h2]
  congr 3
  apply List.map_congr_left
  intro c hc
  have hc' : c < hist.length := List.mem_range.mp hc
  congr 1
  have lens : ∀ G ∈ hist, G.flatten.length = 1 := fun G hG => by rw [fits_length (hh G hG), hone]
  clear h1 h2 h hc
  clear hl
  unfold visited
  induction hist generalizing c with
  | nil => simp at hc'
  | cons G hist ih =>
    have hG := lens G (by simp)
    obtain ⟨x, hx⟩ := List.length_eq_one_iff.mp hG
    cases c with
    | zero => simp [hx]
    | succ c =>
      have := ih (fun G hG => hh G (by simp [hG])) c (by simpa using hc')
        (fun G hG => lens G (by simp [hG]))
      simp only [List.take_succ_cons, List.flatten_cons, List.flatten_append, hx,
        List.getD_cons_succ, List.singleton_append, List.cons_append]
      rw [List.nil_append, List.nil_append, ← this]

/-- The property is false for two or more parameters: with the default hyperparameters, two dense layers
with the same bias and the same bias gradient, but different weight gradients, move the bias in
opposite directions in the first training step. -/
theorem C25_adam_per_parameter_refuted :
    ∃ (l l' : PLayer ℝ) (p q q' : ℝ), PSized l ∧ PSized l' ∧ l.kind = l'.kind ∧ l.params = l'.params ∧
      readAt l.kind l.params 1 = .ok p ∧
      readAt l.kind l.grads 1 = readAt l'.kind l'.grads 1 ∧
      (trainSelf (adamStep (1 / 1000) (9 / 10) (999 / 1000) (1 / 100000000)) Adam.init l).status
        = .ok () ∧
      readAt l.kind (trainSelf (adamStep (1 / 1000) (9 / 10) (999 / 1000) (1 / 100000000))
        Adam.init l).state.2.params 1 = .ok q ∧
      readAt l.kind (trainSelf (adamStep (1 / 1000) (9 / 10) (999 / 1000) (1 / 100000000))
        Adam.init l').state.2.params 1 = .ok q' ∧ q < p ∧ p < q' := by
  refine ⟨⟨.dense 1 1, [[0], [0]], [[0], [1]]⟩, ⟨.dense 1 1, [[0], [0]], [[-2], [1]]⟩, 0, _, _,
    ⟨rfl, rfl⟩, ⟨rfl, rfl⟩, rfl, rfl, rfl, rfl, rfl, rfl, rfl, ?_, ?_⟩
  · simp only [Adam.init, adamStep]
    have : (0:ℝ) < (1 / 1000) * ((9 / 10 * (9 / 10 * 0 + (1 - 9 / 10) * 0) + (1 - 9 / 10) * 1) /
        (1 - (9 / 10) ^ (1 + 1)) / (Real.sqrt ((999 / 1000 * (999 / 1000 * 0 + (1 - 999 / 1000) * (0 * 0))
          + (1 - 999 / 1000) * (1 * 1)) / (1 - (999 / 1000) ^ (1 + 1))) + 1 / 100000000)) := by
      apply mul_pos (by norm_num)
      apply div_pos (by norm_num)
      positivity
    linarith
  · simp only [Adam.init, adamStep]
    have : (1 / 1000) * ((9 / 10 * (9 / 10 * 0 + (1 - 9 / 10) * (-2)) + (1 - 9 / 10) * 1) /
        (1 - (9 / 10) ^ (1 + 1)) / (Real.sqrt ((999 / 1000 * (999 / 1000 * 0
          + (1 - 999 / 1000) * (-2 * -2))
          + (1 - 999 / 1000) * (1 * 1)) / (1 - (999 / 1000) ^ (1 + 1))) + 1 / 100000000)) < (0:ℝ) := by
      apply mul_neg_of_pos_of_neg (by norm_num)
      apply div_neg_of_neg_of_pos (by norm_num)
      positivity
    linarith

/-- `reset()` gives the state of a new optimizer, whatever happened before. -/
theorem C25_reset (s : Adam) : s.reset = Adam.init := rfl

/-- A dense layer 0 → 1 (a bias only) meets the hypotheses of `C25_adam_partial`. -/
example : PSized (⟨.dense 0 1, [[], [3]], [[], [0]]⟩ : PLayer ℝ) ∧ (Kind.dense 0 1).paramCount = 1 ∧
    ∀ G ∈ ([[[], [1]], [[], [2]]] : List (List (List ℝ))),
      G.map List.length = (Kind.dense 0 1).blockSizes := by
  refine ⟨⟨rfl, rfl⟩, rfl, ?_⟩
  intro G hG
  simp at hG
  rcases hG with rfl | rfl <;> rfl

end Verif.Props

import Verif.Proofs.Backprop

/-! Models with several branches: the order of the connections in a run. -/

namespace Verif.Graph

/-- Every connection comes after one that ends where it starts, unless it starts at the beginning. -/
def Ordered (start : List Nat) (r : List (Nat × Nat)) : Prop :=
  ∀ pre x y post, r = pre ++ (x, y) :: post → x ∈ start ∨ ∃ p, (p, x) ∈ pre

theorem ordered_append {start : List Nat} {r N : List (Nat × Nat)} {L : List Nat} (h : Ordered start r)
    (hL : ∀ x ∈ L, x ∈ start ∨ ∃ p, (p, x) ∈ r) (hN : ∀ a ∈ N, a.1 ∈ L) : Ordered start (r ++ N) := by
  intro pre x y post e
  rcases List.append_eq_append_iff.mp e with ⟨c, h1, h2⟩ | ⟨c, h1, h2⟩
  · have hx := hL x (hN (x, y) (by rw [h2]; simp))
    rcases hx with hx | ⟨p, hp⟩
    · exact Or.inl hx
    · exact Or.inr ⟨p, by rw [h1]; simp [hp]⟩
  · cases c with
    | nil =>
      simp only [List.nil_append] at h2
      have hx := hL x (hN (x, y) (by rw [← h2]; simp))
      rcases hx with hx | ⟨p, hp⟩
      · exact Or.inl hx
      · exact Or.inr ⟨p, by rw [h1] at hp; simpa using hp⟩
    | cons z c =>
      simp only [List.cons_append, List.cons.injEq] at h2
      obtain ⟨rfl, _⟩ := h2
      exact h pre x y c h1

theorem runLoop_ordered {succ : Nat → List Nat} {start : List Nat} :
    ∀ (n : Nat) (L : List Nat) (ret : List (Nat × Nat)) (done : List Nat) (r : List (Nat × Nat)),
      Ordered start ret → (∀ x ∈ L, x ∈ start ∨ ∃ p, (p, x) ∈ ret) →
      runLoop succ n L ret done = some r → Ordered start r := by
  intro n
  induction n with
  | zero =>
    intro L ret done r h hL hr
    cases L with
    | nil => simp [runLoop] at hr; subst hr; exact h
    | cons l ls => simp [runLoop] at hr
  | succ n ih =>
    intro L ret done r h hL hr
    cases L with
    | nil => simp [runLoop] at hr; subst hr; exact h
    | cons l ls =>
      obtain ⟨a1, _, _, a4⟩ := wave_fold succ (l :: ls) (l :: ls) ⟨ret, [], done⟩ List.nodup_nil
        (fun _ h => h)
      have hret : (wave succ (l :: ls) ret done).ret = ret ++ (l :: ls).flatMap (arcsOf succ) := a1
      refine ih _ _ _ r ?_ ?_ hr
      · rw [hret]
        refine ordered_append h hL ?_
        rintro ⟨x, y⟩ ha
        exact ((mem_arcs succ _ x y).mp ha).1
      · intro y hy
        rw [show wave succ (l :: ls) ret done
          = (l :: ls).foldl (visitLayer succ (l :: ls)) ⟨ret, [], done⟩ from rfl, a4 y] at hy
        rcases hy with hy | ⟨⟨x, h1, h2⟩, _⟩
        · simp at hy
        · refine Or.inr ⟨x, ?_⟩
          rw [hret, List.mem_append]
          exact Or.inr ((mem_arcs succ _ x y).mpr ⟨h1, h2⟩)

/-- What a run lists. -/
theorem run_list {E : Edges} (hE : EdgesOk E) {start : List Nat} (hn : start.Nodup) :
    ∃ r, (runLoop (successors E) (E.length + 2) start [] []).getD [] = r ∧ r.Nodup ∧
      (∀ x y, (x, y) ∈ r ↔ Reach (successors E) start x ∧ y ∈ successors E x) ∧ Ordered start r := by
  obtain ⟨r, h1, h2, h3⟩ := run_spec (succ := successors E) (start := start) hn
    (successors_nodup hE) (keys_of E)
  have h4 := h1 (E.length + 2) (by simp)
  refine ⟨r, by rw [h4]; rfl, h2, h3, ?_⟩
  refine runLoop_ordered (start := start) _ start [] [] r ?_ (fun x hx => Or.inl hx) h4
  intro pre x y post e
  simp at e

end Verif.Graph

namespace Verif.Net
open Verif.Spec Verif.Graph Finset

noncomputable section

/-- A loop with an invariant that depends on the elements visited. -/
theorem each_visited {σ β : Type} {f : σ → β → Exec (σ × Option String)} {Inv : List β → σ → Prop} {r : List β}
    (h : ∀ pre b post st, r = pre ++ b :: post → Inv pre st →
      ∃ st', f st b = .ok (st', none) ∧ Inv (pre ++ [b]) st') :
    ∀ (r2 r1 : List β) (st : σ), r = r1 ++ r2 → Inv r1 st →
      ∃ st', each f r2 st = .ok (st', none) ∧ Inv r st' := by
  intro r2
  induction r2 with
  | nil => intro r1 st e hi; exact ⟨st, rfl, by rw [e]; simpa using hi⟩
  | cons b r2 ih =>
    intro r1 st e hi
    obtain ⟨st1, a1, a2⟩ := h r1 b r2 st e hi
    obtain ⟨st2, b1, b2⟩ := ih (r1 ++ [b]) st1 (by rw [e]; simp) a2
    refine ⟨st2, ?_, b2⟩
    show (f st b >>= fun r => _) = _
    rw [a1, Exec.bind_ok]
    exact b1

theorem each_map {σ β γ : Type} {f : σ → β → Exec (σ × Option String)} {g : γ → β} :
    ∀ (l : List γ) (s : σ), each f (l.map g) s = each (fun s c => f s (g c)) l s := by
  intro l
  induction l with
  | nil => intro s; rfl
  | cons c l ih =>
    intro s
    show (f s (g c) >>= fun r => _) = (f s (g c) >>= fun r => _)
    congr 1
    funext r
    cases h : r.2 with
    | none => exact ih _
    | some m => rfl

/-! ### The chain by position -/

/-- The value that arrives at a position of the chain. -/
def inpAt (v : List ℝ) (es : List Stage) : Nat → List ℝ
  | 0 => v
  | j + 1 => (es[j]?.map Stage.output).getD []

theorem inpAt_cons {v : List ℝ} {e : Stage} {es : List Stage} : ∀ j,
    inpAt v (e :: es) (j + 1) = inpAt e.output es j := by
  intro j
  cases j with
  | zero => rfl
  | succ j => rfl

theorem chain_index {n m : Nat} {v y : List ℝ} {es : List Stage} (h : Chain n v es m y) :
    inpAt v es es.length = y ∧ ∀ (j : Nat) (e : Stage), es[j]? = some e →
      e.input = inpAt v es j ∧ HasGrads e.nin e.nout e.layer ∧
      Adjoint e.nin e.nout e.layer e.input e.output := by
  induction h with
  | nil n x hx => exact ⟨rfl, by simp⟩
  | @cons e es m y h1 h2 h3 _ ih =>
    refine ⟨?_, ?_⟩
    · rw [List.length_cons, inpAt_cons]; exact ih.1
    · intro j e' he'
      cases j with
      | zero =>
        simp only [List.getElem?_cons_zero, Option.some.injEq] at he'
        subst he'
        exact ⟨rfl, h2, h3⟩
      | succ j =>
        rw [inpAt_cons]
        exact ih.2 j e' he'

/-- The gradients along a chain, by position. -/
theorem chain_grads {n m : Nat} {v y : List ℝ} {es : List Stage} (h : Chain n v es m y) :
    ∀ (g : List ℝ), g.length = m →
    ∃ (gin : Nat → List ℝ) (gp : Nat → Nat → Nat → ℝ), gin es.length = g ∧ (gin 0).length = n ∧
      ((∀ e ∈ es, SmoothAt e.input e.layer) → ChainCurve (es.map Stage.layer) n m v y g (gin 0)) ∧
      ∀ (j : Nat) (e : Stage), es[j]? = some e →
        Back e.nin e.nout e.layer e.input e.output (gin (j + 1)) (gin j) (gp j) ∧
        ∀ b k, Learned e.layer b → b < e.layer.params.length → k < (e.layer.params.getD b []).length →
          (∀ e' ∈ es.drop (j + 1), SmoothAt e'.input e'.layer) →
          StepGrad (es.map Stage.layer) j b k e.layer m v y g (gp j b k) := by
  induction h with
  | nil n x hx =>
    intro g hg
    refine ⟨fun _ => g, fun _ _ _ => 0, rfl, hg, ?_, by simp⟩
    intro _ X X' t0 h1 h2 h3
    exact ⟨X, X', fun t => ⟨.nil _, h2 t⟩, h1, h3, rfl⟩
  | @cons e es m y h1 h2 h3 _ ih =>
    intro g hg
    obtain ⟨gin, gp, r1, r2, r3, r4⟩ := ih g hg
    obtain ⟨hy, hyl, hadj⟩ := h3
    obtain ⟨gi, gp0, a1, a2, a3, a4⟩ := hadj (gin 0) r2
    refine ⟨fun j => match j with | 0 => gi | j + 1 => gin j,
      fun j => match j with | 0 => gp0 | j + 1 => gp j, r1, a1, ?_, ?_⟩
    · intro hsm X X' t0 hX0 hXl hX
      obtain ⟨Z, Z', z1, z2, z3, z4⟩ := a3 (hsm e (by simp)) X X' t0 hX0 hXl hX
      obtain ⟨Y, Y', y1, y2, y3, y4⟩ := r3 (fun e he => hsm e (by simp [he])) Z Z' t0 z2 (fun t => (z1 t).2) z3
      exact ⟨Y, Y', fun t => ⟨.cons (z1 t).1 (y1 t).1, (y1 t).2⟩, y2, y3, y4.trans z4⟩
    · intro j e' he'
      cases j with
      | zero =>
        simp only [List.getElem?_cons_zero, Option.some.injEq] at he'
        subst he'
        refine ⟨a2, ?_⟩
        intro b k hb hb' hk hsm
        obtain ⟨Z, Z', z1, z2, z3, z4⟩ := a4 b k hb hb' hk
        obtain ⟨Y, Y', y1, y2, y3, y4⟩ := r3 hsm Z Z' _ z2 (fun t => (z1 t).2) z3
        exact ⟨Y, Y', fun s => ⟨.cons (z1 s).1 (y1 s).1, (y1 s).2⟩, y2, y3, y4.trans z4⟩
      | succ j =>
        simp only [List.getElem?_cons_succ] at he'
        obtain ⟨c1, c2⟩ := r4 j e' he'
        refine ⟨c1, ?_⟩
        intro b k hb hb' hk hsm
        obtain ⟨Y, Y', y1, y2, y3, y4⟩ := c2 b k hb hb' hk hsm
        exact ⟨Y, Y', fun s => ⟨.cons hy (y1 s).1, (y1 s).2⟩, y2, y3, y4⟩

/-- A chain after a first layer, as a function of a parameter of the first layer. -/
theorem root_grads {k m : Nat} {x z y : List ℝ} {es : List Stage} {l : AnyLayer} {g gi : List ℝ}
    {gp : Nat → Nat → ℝ} (hp : ParamCurve k l x z gi gp)
    (hc : ChainCurve (es.map Stage.layer) k m z y g gi) :
    ∀ b i, Learned l b → b < l.params.length → i < (l.params.getD b []).length →
      StepGrad (l :: es.map Stage.layer) 0 b i l m x y g (gp b i) := by
  intro b i hb hb' hk
  obtain ⟨Z, Z', z1, z2, z3, z4⟩ := hp b i hb hb' hk
  obtain ⟨Y, Y', y1, y2, y3, y4⟩ := hc Z Z' _ z2 (fun t => (z1 t).2) z3
  exact ⟨Y, Y', fun s => ⟨.cons (z1 s).1 (y1 s).1, (y1 s).2⟩, y2, y3, y4.trans z4⟩

end

end Verif.Net

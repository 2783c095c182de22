import Verif.Spec.Net
import Verif.Proofs.Dense
import Verif.Proofs.Pool
import Verif.Proofs.Activation

namespace Verif

theorem Exec.bind_eq_ok {α β : Type _} {e : Exec α} {f : α → Exec β} {b : β}
    (h : (e >>= f) = .ok b) : ∃ a, e = .ok a ∧ f a = .ok b := by
  cases e with
  | ok a => exact ⟨a, rfl, h⟩
  | throw m => cases h
  | ub => cases h

theorem forFrom_inv {σ : Type _} {body : Nat → σ → Exec σ} (P : σ → Prop)
    (step : ∀ i s s', P s → body i s = .ok s' → P s') :
    ∀ (k i0 : Nat) (s s' : σ), P s → forFrom i0 k s body = .ok s' → P s' := by
  intro k
  induction k with
  | zero => intro i0 s s' hs h; cases h; exact hs
  | succ k ih =>
    intro i0 s s' hs h
    obtain ⟨t, h1, h2⟩ := Exec.bind_eq_ok h
    exact ih _ _ _ (step _ _ _ hs h1) h2

theorem forUp_inv {σ : Type _} {n : Nat} {s s' : σ} {body : Nat → σ → Exec σ} (P : σ → Prop)
    (step : ∀ i s s', P s → body i s = .ok s' → P s') (hs : P s) (h : forUp n s body = .ok s') :
    P s' := forFrom_inv P step n 0 s s' hs h

theorem wr_length {α : Type _} {l l' : List α} {i : Nat} {a : α} (h : wr l i a = .ok l') :
    l'.length = l.length := by
  unfold wr at h
  split at h
  · cases h; simp
  · cases h

namespace Net

open Verif.Spec

/-! ### Lengths of buffers, for every call that returns -/

theorem dense_length {α : Type} [Add α] [Mul α] {dst src w b d : List α} {n m : Nat}
    (h : Dense.dense dst src w b n m = .ok d) : d.length = dst.length := by
  refine forUp_inv (fun s => s.length = dst.length) ?_ rfl h
  intro i s s' hs h
  obtain ⟨b, _, h⟩ := Exec.bind_eq_ok h
  obtain ⟨s1, h1, h⟩ := Exec.bind_eq_ok h
  refine forUp_inv (fun s => s.length = dst.length) ?_ ((wr_length h1).trans hs) h
  intro j t t' ht h
  obtain ⟨_, _, h⟩ := Exec.bind_eq_ok h
  obtain ⟨_, _, h⟩ := Exec.bind_eq_ok h
  obtain ⟨_, _, h⟩ := Exec.bind_eq_ok h
  exact (wr_length h).trans ht

theorem kernelSlide_length {α : Type} {op : Nat → Nat → Nat → Nat → Int → Int → List α → Exec (List α)}
    (hop : ∀ a b c d e f s s', op a b c d e f s = .ok s' → s'.length = s.length)
    {ss : Shape3} {k st p : Shape2} {dst d : List α}
    (h : Slide.kernelSlide op ss k st p dst = .ok d) : d.length = dst.length := by
  unfold Slide.kernelSlide at h
  refine forUp_inv (fun s => s.length = dst.length) ?_ rfl h
  intro i s s' hs h
  refine forUp_inv (fun s => s.length = dst.length) ?_ hs h
  intro j t t' ht h
  exact (hop _ _ _ _ _ _ _ _ h).trans ht

theorem crossCorrelation_length {α : Type} [Zero α] [Add α] [Mul α] {dst src w d : List α}
    {ss : Shape3} {k s p : Shape2} {nf : Nat}
    (h : Slide.crossCorrelation dst src ss w k nf s p = .ok d) : d.length = dst.length := by
  refine kernelSlide_length ?_ h
  intro _ _ _ _ _ _ dst d h
  refine forUp_inv (fun s => s.length = dst.length) ?_ rfl h
  intro i t t' ht h
  obtain ⟨_, _, h⟩ := Exec.bind_eq_ok h
  exact (wr_length h).trans ht

theorem maxPool_length {α : Type} [LT α] [DecidableLT α] {dst src d : List α}
    {ss : Shape3} {k s : Shape2} (h : Slide.maxPool dst src ss k s = .ok d) :
    d.length = dst.length := by
  refine kernelSlide_length ?_ h
  intro _ _ _ _ _ _ dst d h
  refine forUp_inv (fun s => s.length = dst.length) ?_ rfl h
  intro i t t' ht h
  obtain ⟨_, _, h⟩ := Exec.bind_eq_ok h
  obtain ⟨_, _, h⟩ := Exec.bind_eq_ok h
  exact (wr_length h).trans ht

theorem avgPool_length {α : Type} [Zero α] [Add α] [Div α] [NatCast α] {dst src d : List α}
    {ss : Shape3} {k s : Shape2} (h : Slide.avgPool dst src ss k s = .ok d) :
    d.length = dst.length := by
  refine kernelSlide_length ?_ h
  intro _ _ _ _ _ _ dst d h
  refine forUp_inv (fun s => s.length = dst.length) ?_ rfl h
  intro i t t' ht h
  obtain ⟨_, _, h⟩ := Exec.bind_eq_ok h
  exact (wr_length h).trans ht

theorem mapArr_length {f : ℝ → ℝ} {dst src d : List ℝ} {n : Nat}
    (h : Act.mapArr f dst src n = .ok d) : d.length = dst.length := by
  refine forUp_inv (fun s => s.length = dst.length) ?_ rfl h
  intro i t t' ht h
  obtain ⟨_, _, h⟩ := Exec.bind_eq_ok h
  exact (wr_length h).trans ht

theorem softmax_length {dst src d : List ℝ} {n : Nat}
    (h : Act.stableSoftmaxNoCheck dst src n = .ok d) : d.length = dst.length := by
  unfold Act.stableSoftmaxNoCheck at h
  obtain ⟨m, _, h⟩ := Exec.bind_eq_ok h
  obtain ⟨s, h1, h⟩ := Exec.bind_eq_ok h
  have hs : s.1.length = dst.length := by
    refine forUp_inv (fun (s : List ℝ × ℝ) => s.1.length = dst.length) ?_ rfl h1
    intro i t t' ht h
    obtain ⟨_, _, h⟩ := Exec.bind_eq_ok h
    obtain ⟨u, hu, h⟩ := Exec.bind_eq_ok h
    obtain ⟨_, _, h⟩ := Exec.bind_eq_ok h
    cases h
    exact (wr_length hu).trans ht
  refine forUp_inv (fun s => s.length = dst.length) ?_ hs h
  intro i t t' ht h
  obtain ⟨_, _, h⟩ := Exec.bind_eq_ok h
  exact (wr_length h).trans ht

theorem arrMul_length {dst src d : List ℝ} {n : Nat} (h : Act.arrMulInPlace dst src n = .ok d) :
    d.length = dst.length := by
  refine forUp_inv (fun s => s.length = dst.length) ?_ rfl h
  intro i t t' ht h
  obtain ⟨_, _, h⟩ := Exec.bind_eq_ok h
  obtain ⟨_, _, h⟩ := Exec.bind_eq_ok h
  exact (wr_length h).trans ht

theorem softmax1_length {dst src g d : List ℝ} {n : Nat}
    (h : Act.softmax1OptNoCheck dst src g n = .ok d) : d.length = dst.length := by
  refine forUp_inv (fun s => s.length = dst.length) ?_ rfl h
  intro i t t' ht h
  obtain ⟨u, hu, h⟩ := Exec.bind_eq_ok h
  refine forUp_inv (fun s => s.length = dst.length) ?_ ((wr_length hu).trans ht) h
  intro j v v' hv h
  obtain ⟨_, _, h⟩ := Exec.bind_eq_ok h
  obtain ⟨_, _, h⟩ := Exec.bind_eq_ok h
  obtain ⟨_, _, h⟩ := Exec.bind_eq_ok h
  obtain ⟨_, _, h⟩ := Exec.bind_eq_ok h
  exact (wr_length h).trans hv

/-! ### What a prediction depends on -/

/-- Is the class `LinearLayer`, whose `forward` replaces the output buffer? -/
def ActFn.isLinear : ActFn → Bool
  | .linear => true
  | _ => false

/-- A layer without the contents of its buffers. -/
noncomputable def core : AnyLayer → AnyLayer
  | .dense l => .dense { l with
      grads := ⟨[], [], []⟩, output := List.replicate l.output.length 0, lastInput := [] }
  | .conv l => .conv { l with
      weightGrads := [], biasGrads := [], inputGrads := []
      out := List.replicate l.out.length 0, lastInput := [] }
  | .maxPool l => .maxPool { l with
      inputGrads := [], out := List.replicate l.out.length 0, lastInput := [] }
  | .avgPool l => .avgPool { l with
      inputGrads := [], out := List.replicate l.out.length 0, lastInput := [] }
  | .act f l => .act f
      ⟨if f.isLinear then [] else List.replicate l.output.length 0,
        List.replicate l.inputGradients.length 0⟩
  | .dropout mx raw l => .dropout mx raw { l with drawn := 0, mask := [], output := [], inputGrad := [] }
  | .rnn f f1 l => .rnn f f1 { l with
      output := [], hidden := [], gih := [], ghh := [], gho := [], gbh := [], gbo := []
      inputGrads := [], lastInput := [] }
  | .loss f _ => .loss f (Loss.Layer.new 0 0 0)

theorem keep_ok {β : Type} {old a : AnyLayer} {r : Exec β} {wrap : β → AnyLayer} {e : Option String}
    (h : keep old r wrap = .ok (a, e)) : a = old ∨ ∃ l, r = .ok l ∧ a = wrap l ∧ e = none := by
  cases r with
  | ok l => cases h; exact Or.inr ⟨l, rfl, rfl, rfl⟩
  | throw m => cases h; exact Or.inl rfl
  | ub => cases h

theorem core_forward {a a' : AnyLayer} {x : List ℝ} {e : Option String}
    (h : a.forward x = .ok (a', e)) : core a' = core a := by
  cases a with
  | dense l =>
    rcases keep_ok h with rfl | ⟨l', h1, rfl, _⟩
    · rfl
    · obtain ⟨o, h2, h3⟩ := Exec.bind_eq_ok h1
      cases h3
      simp [core, dense_length h2]
  | conv l =>
    rcases keep_ok h with rfl | ⟨l', h1, rfl, _⟩
    · rfl
    · obtain ⟨o, h2, h3⟩ := Exec.bind_eq_ok h1
      cases h3
      simp [core, crossCorrelation_length h2]
  | maxPool l =>
    rcases keep_ok h with rfl | ⟨l', h1, rfl, _⟩
    · rfl
    · obtain ⟨o, h2, h3⟩ := Exec.bind_eq_ok h1
      cases h3
      simp [core, maxPool_length h2]
  | avgPool l =>
    rcases keep_ok h with rfl | ⟨l', h1, rfl, _⟩
    · rfl
    · obtain ⟨o, h2, h3⟩ := Exec.bind_eq_ok h1
      cases h3
      simp [core, avgPool_length h2]
  | act f l =>
    rcases keep_ok h with rfl | ⟨l', h1, rfl, _⟩
    · rfl
    · cases f with
      | linear => cases h1; simp [core, ActFn.isLinear]
      | softmax =>
        obtain ⟨o, h2, h3⟩ := Exec.bind_eq_ok h1
        cases h3
        simp [core, ActFn.isLinear, softmax_length h2]
      | _ =>
        obtain ⟨o, h2, h3⟩ := Exec.bind_eq_ok h1
        cases h3
        simp [core, ActFn.isLinear, mapArr_length h2]
  | dropout mx raw l => cases h; rfl
  | rnn f f1 l =>
    rcases keep_ok h with rfl | ⟨l', h1, rfl, _⟩
    · rfl
    · obtain ⟨o, h2, h3⟩ := Exec.bind_eq_ok h1
      cases h3
      rfl
  | loss f l =>
    obtain ⟨o, h2, h3⟩ := Exec.bind_eq_ok h
    cases h3
    rfl

theorem core_setLastInput (a : AnyLayer) (x : List ℝ) : core (a.setLastInput x) = core a := by
  cases a <;> rfl

theorem trainingForward_cases (a : AnyLayer) (x : List ℝ) :
    (∃ mx raw l, a = .dropout mx raw l) ∨ a.trainingForward x = (a.setLastInput x).forward x := by
  cases a <;> first | exact Or.inl ⟨_, _, _, rfl⟩ | exact Or.inr rfl

theorem core_trainingForward {a a' : AnyLayer} {x : List ℝ} {e : Option String}
    (h : a.trainingForward x = .ok (a', e)) : core a' = core a := by
  rcases trainingForward_cases a x with ⟨mx, raw, l, rfl⟩ | h1
  · rcases keep_ok h with rfl | ⟨l', h1, rfl, _⟩
    · rfl
    · obtain ⟨o, h2, h3⟩ := Exec.bind_eq_ok h1
      cases h3
      rfl
  · rw [h1] at h
    exact (core_forward h).trans (core_setLastInput _ _)

theorem core_backward {a a' : AnyLayer} {x : List ℝ} {e : Option String}
    (h : a.backward x = .ok (a', e)) : core a' = core a := by
  cases a with
  | dropout mx raw l =>
    rcases keep_ok h with rfl | ⟨l', h1, rfl, _⟩
    · rfl
    · obtain ⟨o, h2, h3⟩ := Exec.bind_eq_ok h1
      obtain ⟨o, h2, h3⟩ := Exec.bind_eq_ok h3
      cases h3
      rfl
  | conv l =>
    rcases keep_ok h with rfl | ⟨l', h1, rfl, _⟩
    · rfl
    · obtain ⟨o, h2, h3⟩ := Exec.bind_eq_ok h1
      obtain ⟨o, h2, h3⟩ := Exec.bind_eq_ok h3
      cases h3
      rfl
  | act f l =>
    rcases keep_ok h with rfl | ⟨l', h1, rfl, _⟩
    · rfl
    · cases f with
      | linear =>
        obtain ⟨o, h2, h3⟩ := Exec.bind_eq_ok h1
        cases h3
        simp [core, mapArr_length h2]
      | softmax =>
        obtain ⟨o, h2, h3⟩ := Exec.bind_eq_ok h1
        cases h3
        simp [core, softmax1_length h2]
      | _ =>
        obtain ⟨o, h2, h3⟩ := Exec.bind_eq_ok h1
        obtain ⟨o', h4, h3⟩ := Exec.bind_eq_ok h3
        cases h3
        simp [core, arrMul_length h4, mapArr_length h2]
  | loss f l =>
    rcases keep_ok h with rfl | ⟨l', h1, rfl, _⟩
    · rfl
    · rfl
  | _ =>
    rcases keep_ok h with rfl | ⟨l', h1, rfl, _⟩
    · rfl
    · obtain ⟨o, h2, h3⟩ := Exec.bind_eq_ok h1
      cases h3
      rfl

/-! ### The value of a layer -/

/-- Every layer that differs from `a` in buffer contents only returns `y` for `x`. -/
def Yields (a : AnyLayer) (x y : List ℝ) : Prop :=
  ∀ a', core a' = core a → ∃ a'', a'.forward x = .ok (a'', none) ∧ a''.lastOutput = .ok y

theorem ext_rows {rows cols n : Nat} {F : Nat → Nat → Nat → ℝ} {d d' : List ℝ}
    (hl : d.length = rows * cols * n) (hl' : d'.length = rows * cols * n)
    (h : ∀ r c f, r < rows → c < cols → f < n → d[(r * cols + c) * n + f]? = some (F r c f))
    (h' : ∀ r c f, r < rows → c < cols → f < n → d'[(r * cols + c) * n + f]? = some (F r c f)) :
    d = d' := by
  apply List.ext_getElem?
  intro i
  by_cases hi : i < rows * cols * n
  · have hn : 0 < n := Nat.pos_of_ne_zero (by rintro rfl; simp at hi)
    have hc : 0 < cols := Nat.pos_of_ne_zero (by rintro rfl; simp at hi)
    have h1 : i / n < rows * cols := Nat.div_lt_of_lt_mul (by rw [Nat.mul_comm]; exact hi)
    have h2 : i / n / cols < rows := Nat.div_lt_of_lt_mul (by rw [Nat.mul_comm]; exact h1)
    have e : (i / n / cols * cols + i / n % cols) * n + i % n = i := by
      rw [Nat.div_add_mod', Nat.div_add_mod']
    have a := h _ _ _ h2 (Nat.mod_lt (i / n) hc) (Nat.mod_lt i hn)
    have b := h' _ _ _ h2 (Nat.mod_lt (i / n) hc) (Nat.mod_lt i hn)
    rw [e] at a b
    rw [a, b]
  · rw [List.getElem?_eq_none (by omega), List.getElem?_eq_none (by omega)]

theorem yields_of_maps {a : AnyLayer} {n m : Nat} (h : Maps n m a) {x : List ℝ}
    (hx : x.length = n) : ∃ y, y.length = m ∧ Yields a x y := by
  cases a with
  | dense l =>
    obtain ⟨h1, h2, h3, h4, h5⟩ := h
    refine ⟨tab m fun i => ordSum (vec l.biases i) n fun j => mat l.weights n i j * vec x j,
      by simp, ?_⟩
    intro a' ha'
    cases a' <;> simp [core] at ha'
    case dense l' =>
    obtain ⟨l'i, l'o, l'w, l'b, l'g, l'out, l'in⟩ := l'
    simp at ha'
    obtain ⟨rfl, rfl, rfl, rfl, e5⟩ := ha'
    refine ⟨.dense ⟨l.inputSize, l.outputSize, l.weights, l.biases, l'g, _, l'in⟩, ?_, rfl⟩
    show keep _ (Dense.Layer.forward _ _) _ = _
    unfold Dense.Layer.forward
    dsimp only
    have := Dense.dense_eq (dst := l'out) (src := x) (w := l.weights) (b := l.biases) (n := x.length)
      (m := l'out.length) (Nat.le_refl _) (Nat.le_refl _) (by rw [h4, e5, h3, hx]) (by rw [h5, e5, h3])
    rw [this, Exec.bind_ok]
    simp only [Exec.pure_eq_ok, keep]
    congr 4
    rw [e5, h3]
    apply tab_congr
    intro i hi
    rw [if_pos hi, hx]
  | conv l =>
    obtain ⟨g, hg, h1, h2, h3, h4, h5, h6, h7, h8⟩ := h
    have spec : ∀ dst : List ℝ, dst.length = m → ∃ d,
        Slide.crossCorrelation dst x l.input l.weights l.kernel l.nFilters l.stride l.padding = .ok d ∧
        d.length = m ∧ ∀ r c f, r < g.rows → c < g.cols → f < l.nFilters →
        d[(r * g.cols + c) * l.nFilters + f]?
          = some (corr g l.nFilters (vec x) (vec l.weights) r c f) := by
      intro dst hd
      rw [h1, h2, h3, h4]
      obtain ⟨d, e1, e2, e3, _⟩ := Slide.crossCorrelation_spec hg (nf := l.nFilters) (dst := dst)
        (src := x) (k := l.weights) (by omega) (by omega) (by omega)
      exact ⟨d, e1, by omega, e3⟩
    obtain ⟨y, y1, y2, y3⟩ := spec l.out h6
    refine ⟨y, y2, ?_⟩
    intro a' ha'
    cases a' <;> simp [core] at ha'
    case conv l' =>
    obtain ⟨l1, l2, l3, l4, l5, l6, l7, l8, l9, l10, l11, l12, l13⟩ := l'
    simp at ha'
    obtain ⟨rfl, rfl, rfl, rfl, rfl, rfl, rfl, rfl, e⟩ := ha'
    obtain ⟨d, d1, d2, d3⟩ := spec l12 (by rw [e, h6])
    have : d = y := ext_rows (by rw [d2, h7]) (by rw [y2, h7]) d3 y3
    subst this
    refine ⟨.conv ⟨l.input, l.output, l.kernel, l.nFilters, l.stride, l.padding, l.weights, l.biases,
      l9, l10, l11, d, l13⟩, ?_, rfl⟩
    show keep _ (Slide.ConvLayer.forward _ _) _ = _
    unfold Slide.ConvLayer.forward
    dsimp only
    rw [d1]
    rfl
  | maxPool l =>
    obtain ⟨g, hg, hp, h1, h2, h3, h6, h7, h8⟩ := h
    have spec : ∀ dst : List ℝ, dst.length = m → ∃ d,
        Slide.maxPool dst x l.input l.kernel l.stride = .ok d ∧
        d.length = m ∧ ∀ r c f, r < g.rows → c < g.cols → f < g.src.c →
        d[(r * g.cols + c) * g.src.c + f]?
          = some (Slide.runMax (fun ki => vec x (Slide.cellNo g r c f ki)) (g.kh * g.kw)) := by
      intro dst hd
      rw [h1, h2, h3]
      obtain ⟨d, e1, e2, e3, _⟩ := Slide.maxPool_spec hg hp (dst := dst)
        (src := x) (by omega) (by omega)
      exact ⟨d, e1, by omega, e3⟩
    obtain ⟨y, y1, y2, y3⟩ := spec l.out h6
    refine ⟨y, y2, ?_⟩
    intro a' ha'
    cases a' <;> simp [core] at ha'
    case maxPool l' =>
    obtain ⟨l1, l2, l3, l5, l11, l12, l13⟩ := l'
    simp at ha'
    obtain ⟨rfl, rfl, rfl, rfl, e⟩ := ha'
    obtain ⟨d, d1, d2, d3⟩ := spec l12 (by rw [e, h6])
    have : d = y := ext_rows (by rw [d2, h7]) (by rw [y2, h7]) d3 y3
    subst this
    refine ⟨.maxPool ⟨l.input, l.output, l.kernel, l.stride, l11, d, l13⟩, ?_, rfl⟩
    show keep _ (Slide.maxForward _ _) _ = _
    unfold Slide.maxForward
    dsimp only
    rw [d1]
    rfl
  | avgPool l =>
    obtain ⟨g, hg, hp, h1, h2, h3, h6, h7, h8⟩ := h
    have spec : ∀ dst : List ℝ, dst.length = m → ∃ d,
        Slide.avgPool dst x l.input l.kernel l.stride = .ok d ∧
        d.length = m ∧ ∀ r c f, r < g.rows → c < g.cols → f < g.src.c →
        d[(r * g.cols + c) * g.src.c + f]?
          = some ((∑ a ∈ Finset.range g.kh, ∑ b ∈ Finset.range g.kw, vec x (windowCell g r c a b f))
            / ((g.kh * g.kw : Nat) : ℝ)) := by
      intro dst hd
      rw [h1, h2, h3]
      obtain ⟨d, e1, e2, e3, _⟩ := Slide.avgPool_spec hg hp (dst := dst)
        (src := x) (by omega) (by omega)
      exact ⟨d, e1, by omega, e3⟩
    obtain ⟨y, y1, y2, y3⟩ := spec l.out h6
    refine ⟨y, y2, ?_⟩
    intro a' ha'
    cases a' <;> simp [core] at ha'
    case avgPool l' =>
    obtain ⟨l1, l2, l3, l5, l11, l12, l13⟩ := l'
    simp at ha'
    obtain ⟨rfl, rfl, rfl, rfl, e⟩ := ha'
    obtain ⟨d, d1, d2, d3⟩ := spec l12 (by rw [e, h6])
    have : d = y := ext_rows (by rw [d2, h7]) (by rw [y2, h7]) d3 y3
    subst this
    refine ⟨.avgPool ⟨l.input, l.output, l.kernel, l.stride, l11, d, l13⟩, ?_, rfl⟩
    show keep _ (Slide.avgForward _ _) _ = _
    unfold Slide.avgForward
    dsimp only
    rw [d1]
    rfl
  | act f l =>
    have point : ∀ φ : ℝ → ℝ, ∀ l' : Act.Layer, l'.output.length = x.length →
        l'.forwardWith φ x = .ok { l' with output := tab x.length fun i => φ (vec x i) } := by
      intro φ l' hl'
      rw [Act.forwardWith_eq φ (by omega), hl']
    have done : ∀ (φ : ℝ → ℝ), f.isLinear = false → f.forward = Act.Layer.forwardWith φ →
        m = n ∧ l.output.length = n → ∃ y : List ℝ, y.length = m ∧ Yields (.act f l) x y := by
      intro φ hf hφ hm
      refine ⟨tab x.length fun i => φ (vec x i), by simp; omega, ?_⟩
      intro a' ha'
      cases a' <;> simp [core] at ha'
      case act f' l' =>
      obtain ⟨rfl, e⟩ := ha'
      simp [hf] at e
      refine ⟨.act f' { l' with output := tab x.length fun i => φ (vec x i) }, ?_, rfl⟩
      show keep _ (f'.forward l' x) _ = _
      rw [hφ, point φ l' (by omega)]
      rfl
    cases f with
    | relu => exact done _ rfl rfl h
    | elu a => exact done _ rfl rfl h
    | tanh => exact done _ rfl rfl h
    | sigmoid => exact done _ rfl rfl h
    | linear =>
      refine ⟨x, by rw [hx]; exact h.symm, ?_⟩
      intro a' ha'
      cases a' <;> simp [core] at ha'
      case act f' l' =>
      obtain ⟨rfl, e⟩ := ha'
      exact ⟨.act .linear { l' with output := x }, rfl, rfl⟩
    | softmax =>
      obtain ⟨h1, h2, h3⟩ := h
      refine ⟨tab n (softmaxFn n (vec x)), by simp [h1], ?_⟩
      intro a' ha'
      cases a' <;> simp [core] at ha'
      case act f' l' =>
      obtain ⟨rfl, e⟩ := ha'
      simp [ActFn.isLinear] at e
      refine ⟨.act .softmax { l' with output := tab n (softmaxFn n (vec x)) }, ?_, rfl⟩
      show keep _ (Act.softmaxForward l' x) _ = _
      unfold Act.softmaxForward
      rw [e.1, h2, Act.stableSoftmax_eq h3 (by omega) (by omega)]
      rfl
  | dropout mx raw l => exact absurd h (by simp [Maps])
  | rnn f f1 l => exact absurd h (by simp [Maps])
  | loss f l => exact absurd h (by simp [Maps])

end Net

end Verif

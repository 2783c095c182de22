import Verif.Spec.Drift
import Verif.Proofs.Joint
import Verif.Proofs.Fnn
import Mathlib.Analysis.Calculus.MeanValue

/-! Layers of networks are Lipschitz in their inputs and parameters. -/

namespace Verif.Net
open Verif.Spec Verif.Slide Finset

theorem prod_close {w w' x x' δ e : ℝ} (hw : |w' - w| ≤ δ) (hx : |x' - x| ≤ e) :
    |w' * x' - w * x| ≤ δ * |x| + (|w| + δ) * e := by
  have e1 : w' * x' - w * x = (w' - w) * x + w * (x' - x) + (w' - w) * (x' - x) := by ring
  have h1 : |(w' - w) * x| ≤ δ * |x| := by
    rw [abs_mul]; exact mul_le_mul_of_nonneg_right hw (abs_nonneg _)
  have h2 : |w * (x' - x)| ≤ |w| * e := by
    rw [abs_mul]; exact mul_le_mul_of_nonneg_left hx (abs_nonneg _)
  have h3 : |(w' - w) * (x' - x)| ≤ δ * e := by
    rw [abs_mul]; exact mul_le_mul hw hx (abs_nonneg _) ((abs_nonneg _).trans hw)
  rw [e1]
  have := abs_add_three ((w' - w) * x) (w * (x' - x)) ((w' - w) * (x' - x))
  nlinarith

theorem sum_close {ι : Type} (s : Finset ι) {w w' x x' : ι → ℝ} {δ e : ℝ}
    (hw : ∀ i ∈ s, |w' i - w i| ≤ δ) (hx : ∀ i ∈ s, |x' i - x i| ≤ e) :
    |∑ i ∈ s, w' i * x' i - ∑ i ∈ s, w i * x i|
      ≤ δ * ∑ i ∈ s, |x i| + (∑ i ∈ s, |w i| + s.card * δ) * e := by
  rw [← Finset.sum_sub_distrib]
  refine (Finset.abs_sum_le_sum_abs _ _).trans ?_
  refine (Finset.sum_le_sum fun i hi => prod_close (hw i hi) (hx i hi)).trans (le_of_eq ?_)
  rw [Finset.sum_add_distrib, ← Finset.mul_sum, ← Finset.sum_mul, Finset.sum_add_distrib, Finset.sum_const,
    nsmul_eq_mul]

theorem le_sup_fin {n : Nat} (f : Fin n → ℝ) (i : Fin n) : f i ≤ ⨆ j, f j :=
  le_ciSup (Set.finite_range f).bddAbove i

theorem le_sup_vec (x : List ℝ) (j : Nat) : |vec x j| ≤ ⨆ j : Fin x.length, |vec x j| := by
  by_cases hj : j < x.length
  · exact le_sup_fin (fun j : Fin x.length => |vec x j|) ⟨j, hj⟩
  · have : vec x j = 0 := by
      show x.getD j 0 = 0
      rw [List.getD_eq_getElem?_getD, List.getElem?_eq_none (by omega)]; rfl
    rw [this, abs_zero]
    exact Real.iSup_nonneg fun _ => abs_nonneg _

/-! ### Activations -/

theorem relu_close (x y : ℝ) : |Act.relu y - Act.relu x| ≤ |y - x| := by
  have e : ∀ x : ℝ, Act.relu x = max x 0 := by
    intro x
    unfold Act.relu
    split
    · next h => exact (max_eq_right h.le).symm
    · next h => exact (max_eq_left (not_lt.mp h)).symm
  rw [e, e]
  exact abs_max_sub_max_le_abs y x 0

theorem sigmoid_close (x y : ℝ) : |Act.sigmoid y - Act.sigmoid x| ≤ 1 / 4 * |y - x| := by
  have := Convex.norm_image_sub_le_of_norm_hasDerivWithin_le (f := Act.sigmoid) (f' := Act.sigmoid1)
    (C := 1 / 4) (s := Set.univ) (x := x) (y := y)
    (fun z _ => (Act.sigmoid_deriv z).hasDerivWithinAt) (fun z _ => ?_) convex_univ trivial trivial
  · simpa using this
  · unfold Act.sigmoid1 Act.sigmoid1Opt
    rw [Real.norm_eq_abs, abs_le]
    have h0 : 0 < Act.sigmoid z := by unfold Act.sigmoid; positivity
    have h1 : Act.sigmoid z < 1 := by
      unfold Act.sigmoid
      rw [div_lt_one (by positivity)]
      have := Real.exp_pos (-z)
      linarith
    constructor
    · nlinarith
    · nlinarith [sq_nonneg (Act.sigmoid z - 1 / 2)]

theorem tanh_close (x y : ℝ) : |Act.tanh y - Act.tanh x| ≤ |y - x| := by
  have := Convex.norm_image_sub_le_of_norm_hasDerivWithin_le (f := Act.tanh) (f' := Act.tanh1)
    (C := 1) (s := Set.univ) (x := x) (y := y)
    (fun z _ => (Act.tanh_deriv z).hasDerivWithinAt) (fun z _ => ?_) convex_univ trivial trivial
  · simpa using this
  · unfold Act.tanh1 Act.tanh1Opt
    rw [Real.norm_eq_abs, abs_le]
    have h0 : Real.tanh z ^ 2 < 1 := Real.tanh_sq_lt_one z
    constructor
    · nlinarith
    · nlinarith [sq_nonneg (Real.tanh z)]

theorem exp_close {x y : ℝ} (hy : y ≤ 0) (h : x ≤ y) : Real.exp y - Real.exp x ≤ y - x := by
  have h1 : Real.exp x = Real.exp y * Real.exp (x - y) := by rw [← Real.exp_add]; ring_nf
  have h2 := Real.add_one_le_exp (x - y)
  have h3 : Real.exp y ≤ 1 := Real.exp_le_one_iff.mpr hy
  have h4 := Real.exp_pos y
  rw [h1]
  nlinarith

theorem elu_mono_close (a : ℝ) {x y : ℝ} (h : x ≤ y) : |Act.elu a y - Act.elu a x| ≤ max 1 |a| * (y - x) := by
  have hm1 : 1 ≤ max 1 |a| := le_max_left _ _
  have hm2 : |a| ≤ max 1 |a| := le_max_right _ _
  generalize max 1 |a| = M at hm1 hm2
  unfold Act.elu
  by_cases hx : x > 0
  · rw [if_pos hx, if_pos (by linarith), abs_of_nonneg (by linarith)]
    nlinarith
  · rw [if_neg hx]
    have hx' : x ≤ 0 := not_lt.mp hx
    by_cases hy : y > 0
    · rw [if_pos hy]
      have h1 := exp_close (le_refl 0) hx'
      rw [Real.exp_zero] at h1
      have h2 : |a * (Real.exp x - 1)| ≤ |a| * (0 - x) := by
        rw [abs_mul]
        refine mul_le_mul_of_nonneg_left ?_ (abs_nonneg _)
        rw [abs_sub_comm, abs_of_nonneg (by linarith [Real.exp_le_one_iff.mpr hx'])]
        exact h1
      have h3 := abs_sub y (a * (Real.exp x - 1))
      rw [abs_of_pos hy] at h3
      nlinarith
    · rw [if_neg hy]
      have hy' : y ≤ 0 := not_lt.mp hy
      have h1 := exp_close hy' h
      have h2 := Real.exp_le_exp.mpr h
      have : a * (Real.exp y - 1) - a * (Real.exp x - 1) = a * (Real.exp y - Real.exp x) := by ring
      rw [this, abs_mul, abs_of_nonneg (by linarith : (0 : ℝ) ≤ Real.exp y - Real.exp x)]
      have := abs_nonneg a
      nlinarith

theorem elu_close (a x y : ℝ) : |Act.elu a y - Act.elu a x| ≤ max 1 |a| * |y - x| := by
  rcases le_total x y with h | h
  · rw [abs_of_nonneg (by linarith : 0 ≤ y - x)]; exact elu_mono_close a h
  · rw [abs_sub_comm, abs_sub_comm y x, abs_of_nonneg (by linarith : 0 ≤ x - y)]; exact elu_mono_close a h

theorem softmax_close {n : Nat} (hn : 0 < n) {x y : Nat → ℝ} {e : ℝ} (h : ∀ j, j < n → |y j - x j| ≤ e)
    {i : Nat} (hi : i < n) : |softmaxFn n y i - softmaxFn n x i| ≤ e / 2 := by
  let X : ℝ → Nat → ℝ := fun t j => x j + t * (y j - x j)
  have hX : ∀ t j, HasDerivAt (fun t => X t j) (y j - x j) t := by
    intro t j
    have := ((hasDerivAt_id t).mul_const (y j - x j)).const_add (x j)
    simpa [X] using this
  have key := norm_image_sub_le_of_norm_deriv_le_segment_01' (f := fun t => softmaxFn n (X t) i)
    (f' := fun t => ∑ j ∈ range n, softmaxFn n (X t) j * ((if j = i then 1 else 0) - softmaxFn n (X t) i) *
      (y j - x j)) (C := e / 2)
    (fun t _ => (softmax_curve hn X (fun j => y j - x j) t (fun j _ => hX t j) hi).hasDerivWithinAt) ?_
  · have e1 : X 1 = y := by funext j; simp [X]
    have e0 : X 0 = x := by funext j; simp [X]
    simpa [e1, e0] using key
  · intro t _
    generalize X t = z
    have hS := Act.sum_exp_pos hn z
    have hp : ∀ j, 0 < softmaxFn n z j := fun j => by
      unfold softmaxFn; exact div_pos (Real.exp_pos _) hS
    have hsum : ∑ j ∈ range n, softmaxFn n z j = 1 := by
      unfold softmaxFn
      rw [← Finset.sum_div, div_self hS.ne']
    have hle : softmaxFn n z i ≤ 1 := by
      rw [← hsum]
      exact Finset.single_le_sum (f := fun j => softmaxFn n z j) (fun j _ => (hp j).le) (by simpa using hi)
    have he : 0 ≤ e := (abs_nonneg _).trans (h i hi)
    rw [Real.norm_eq_abs]
    refine (Finset.abs_sum_le_sum_abs _ _).trans ?_
    have hb : ∀ j ∈ range n, |softmaxFn n z j * ((if j = i then 1 else 0) - softmaxFn n z i) * (y j - x j)|
        ≤ (softmaxFn n z j * softmaxFn n z i + (if j = i then softmaxFn n z i * (1 - 2 * softmaxFn n z i)
          else 0)) * e := by
      intro j hj
      rw [abs_mul]
      have h2 := h j (by simpa using hj)
      refine mul_le_mul ?_ h2 (abs_nonneg _) ?_
      · by_cases hji : j = i
        · subst hji
          rw [if_pos rfl, if_pos rfl, abs_of_nonneg (mul_nonneg (hp j).le (by linarith))]
          nlinarith
        · rw [if_neg hji, if_neg hji, abs_mul, abs_of_pos (hp j), zero_sub, abs_neg, abs_of_pos (hp i), add_zero]
      · by_cases hji : j = i
        · subst hji
          rw [if_pos rfl]
          nlinarith [hp j]
        · rw [if_neg hji]
          have := mul_pos (hp j) (hp i)
          linarith
    refine (Finset.sum_le_sum hb).trans ?_
    rw [← Finset.sum_mul, Finset.sum_add_distrib, ← Finset.sum_mul, hsum, Finset.sum_ite_eq',
      if_pos (by simpa using hi)]
    have := hp i
    generalize softmaxFn n z i = s at *
    nlinarith [sq_nonneg (s - 1 / 2), mul_nonneg he (sq_nonneg (s - 1 / 2))]

/-! ### Pooling -/

theorem runMax_close {v w : Nat → ℝ} {e : ℝ} {n : Nat} (hn : 1 ≤ n) (h : ∀ i, i < n → |w i - v i| ≤ e) :
    |runMax w n - runMax v n| ≤ e := by
  obtain ⟨⟨i, hi, ei⟩, bv⟩ := runMax_spec v hn
  obtain ⟨⟨j, hj, ej⟩, bw⟩ := runMax_spec w hn
  have h1 := abs_le.mp (h i hi)
  have h2 := abs_le.mp (h j hj)
  have h3 := bv j hj
  have h4 := bw i hi
  rw [abs_le]
  constructor <;> linarith

theorem avgPool_yields {l : PoolLayer ℝ} {n m : Nat} {g : Geom} (hg : g.Fits) (hp : g.Pool)
    (h1 : l.input = g.src) (h2 : l.kernel = ⟨g.kh, g.kw⟩) (h3 : l.stride = ⟨g.sh, g.sw⟩)
    (h6 : l.out.length = m) (h7 : m = g.rows * g.cols * g.src.c) (h8 : n = g.src.h * g.src.w * g.src.c)
    {x : List ℝ} (hx : x.length = n) :
    Yields (.avgPool l) x (tab m fun i => (∑ a ∈ range g.kh, ∑ b ∈ range g.kw,
      vec x (windowCell g (i / g.src.c / g.cols) (i / g.src.c % g.cols) a b (i % g.src.c)))
        / ((g.kh * g.kw : Nat) : ℝ)) := by
  intro a' ha'
  cases a' <;> simp [core] at ha'
  case avgPool l' =>
  obtain ⟨l1, l2, l3, l5, l11, l12, l13⟩ := l'
  simp at ha'
  obtain ⟨rfl, rfl, rfl, rfl, e⟩ := ha'
  obtain ⟨d, e1, e2, e3, _⟩ := avgPool_spec hg hp (dst := l12) (src := x) (by omega) (by omega)
  have hd : d = tab m fun i => (∑ a ∈ range g.kh, ∑ b ∈ range g.kw,
      vec x (windowCell g (i / g.src.c / g.cols) (i / g.src.c % g.cols) a b (i % g.src.c)))
        / ((g.kh * g.kw : Nat) : ℝ) := by
    refine ext_rows (rows := g.rows) (cols := g.cols) (n := g.src.c) (by omega)
      (by rw [tab_length, h7]) e3 ?_
    intro r c f hr hc hf
    rw [tab_getElem? _ (by rw [h7]; exact out_lt hr hc hf)]
    obtain ⟨s1, s2, s3⟩ := out_split (r := r) hc hf
    rw [s1, s2, s3]
  refine ⟨.avgPool ⟨l.input, l.output, l.kernel, l.stride, l11, d, l13⟩, ?_, by rw [hd]; rfl⟩
  show keep _ (Slide.avgForward _ _) _ = _
  unfold Slide.avgForward
  dsimp only
  rw [h1, h2, h3]
  have e1' : Slide.avgPool l12 x g.src ⟨g.kh, g.kw⟩ ⟨g.sh, g.sw⟩ = .ok d := e1
  rw [e1']
  rfl

theorem avg_close {kh kw : Nat} {v w : Nat → Nat → ℝ} {e : ℝ} (he : 0 ≤ e) (h : ∀ a b, |w a b - v a b| ≤ e) :
    |(∑ a ∈ range kh, ∑ b ∈ range kw, w a b) / ((kh * kw : Nat) : ℝ)
      - (∑ a ∈ range kh, ∑ b ∈ range kw, v a b) / ((kh * kw : Nat) : ℝ)| ≤ e := by
  have hq : (0 : ℝ) ≤ ((kh * kw : Nat) : ℝ) := Nat.cast_nonneg _
  rw [← sub_div, abs_div, abs_of_nonneg hq, ← Finset.sum_sub_distrib]
  refine div_le_of_le_mul₀ (Nat.cast_nonneg _) he ?_
  refine (Finset.abs_sum_le_sum_abs _ _).trans ?_
  have : ∀ a ∈ range kh, |∑ b ∈ range kw, w a b - ∑ b ∈ range kw, v a b| ≤ kw * e := by
    intro a _
    rw [← Finset.sum_sub_distrib]
    refine (Finset.abs_sum_le_sum_abs _ _).trans ?_
    refine (Finset.sum_le_sum fun b _ => h a b).trans (le_of_eq ?_)
    simp
  refine (Finset.sum_le_sum this).trans (le_of_eq ?_)
  simp only [Finset.sum_const, card_range, nsmul_eq_mul, Nat.cast_mul]
  ring

/-! ### Convolution -/

theorem padded_close {x x' : Nat → ℝ} {e : ℝ} (he : 0 ≤ e) (h : ∀ j, |x' j - x j| ≤ e) (s : Shape3) (i j : Int)
    (c : Nat) : |padded x' s i j c - padded x s i j c| ≤ e := by
  unfold padded
  split
  · exact h _
  · simpa using he

theorem padded_le {x : Nat → ℝ} {M : ℝ} (hM : 0 ≤ M) (h : ∀ j, |x j| ≤ M) (s : Shape3) (i j : Int) (c : Nat) :
    |padded x s i j c| ≤ M := by
  unfold padded
  split
  · exact h _
  · simpa using hM

theorem corr_close {g : Geom} {nf : Nat} {x x' w w' : Nat → ℝ} {δ e M : ℝ} (he : 0 ≤ e) (hδ : 0 ≤ δ) (hM : 0 ≤ M)
    (hx : ∀ j, |x' j - x j| ≤ e) (hw : ∀ j, |w' j - w j| ≤ δ) (hb : ∀ j, |x j| ≤ M) (r c f : Nat) :
    |corr g nf x' w' r c f - corr g nf x w r c f| ≤ δ * ((g.kh * g.kw * g.src.c : Nat) * M) +
      ((∑ a ∈ range g.kh, ∑ b ∈ range g.kw, ∑ ch ∈ range g.src.c,
          |w (((a * g.kw + b) * g.src.c + ch) * nf + f)|) + (g.kh * g.kw * g.src.c : Nat) * δ) * e := by
  have e0 : ∀ x w : Nat → ℝ, corr g nf x w r c f = ∑ t ∈ range g.kh ×ˢ range g.kw ×ˢ range g.src.c,
      w (((t.1 * g.kw + t.2.1) * g.src.c + t.2.2) * nf + f) *
      padded x g.src ((r * g.sh + t.1 : Nat) - (g.ph : Int)) ((c * g.sw + t.2.1 : Nat) - (g.pw : Int)) t.2.2 := by
    intro x w
    unfold corr
    rw [Finset.sum_product]
    refine Finset.sum_congr rfl fun a _ => ?_
    rw [Finset.sum_product]
    exact Finset.sum_congr rfl fun b _ => Finset.sum_congr rfl fun ch _ => mul_comm _ _
  have e1 : (∑ a ∈ range g.kh, ∑ b ∈ range g.kw, ∑ ch ∈ range g.src.c,
      |w (((a * g.kw + b) * g.src.c + ch) * nf + f)|) = ∑ t ∈ range g.kh ×ˢ range g.kw ×ˢ range g.src.c,
      |w (((t.1 * g.kw + t.2.1) * g.src.c + t.2.2) * nf + f)| := by
    rw [Finset.sum_product]
    refine Finset.sum_congr rfl fun a _ => ?_
    rw [Finset.sum_product]
  have hc : (range g.kh ×ˢ range g.kw ×ˢ range g.src.c).card = g.kh * g.kw * g.src.c := by
    simp [Nat.mul_assoc]
  rw [e0, e0, e1]
  refine (sum_close _ (fun t _ => hw _) (fun t _ => padded_close he hx _ _ _ _)).trans ?_
  rw [hc]
  refine add_le_add_left ?_ _ |>.trans (le_refl _)
  refine mul_le_mul_of_nonneg_left ?_ hδ
  refine (Finset.sum_le_sum fun t _ => padded_le hM hb _ _ _ _).trans (le_of_eq ?_)
  rw [Finset.sum_const, hc, nsmul_eq_mul]

/-! ### Layers -/

/-- Every value of the second list differs from that of the first one by at most `e`. -/
def Close (e : ℝ) (x y : List ℝ) : Prop := ∀ j, |vec y j - vec x j| ≤ e

theorem close_tab {n : Nat} {f g : Nat → ℝ} {e : ℝ} (he : 0 ≤ e) (h : ∀ i, i < n → |g i - f i| ≤ e) :
    Close e (tab n f) (tab n g) := by
  intro j
  by_cases hj : j < n
  · rw [vec_tab _ hj, vec_tab _ hj]; exact h j hj
  · have : ∀ f : Nat → ℝ, vec (tab n f) j = 0 := by
      intro f
      show (tab n f).getD j 0 = 0
      rw [List.getD_eq_getElem?_getD, List.getElem?_eq_none (by simp; omega)]; rfl
    rw [this, this]
    simpa using he

theorem layer_close {l : AnyLayer} {n m : Nat} (h : Maps n m l) {ps : List (List ℝ)}
    (hl : ps.map List.length = l.params.map List.length) {δ e : ℝ} (hδ : 0 ≤ δ) (he : 0 ≤ e)
    (hp : ∀ b k, |entry ps b k - entry l.params b k| ≤ δ) {x x' : List ℝ} (hx : x.length = n)
    (hx' : x'.length = n) (hc : Close e x x') :
    0 ≤ layerDrift δ e x l ∧ ∃ y y', Yields l x y ∧ Yields (l.setParams ps) x' y' ∧ y.length = m ∧
      y'.length = m ∧ Close (layerDrift δ e x l) y y' := by
  have h' := maps_setParams h hl
  cases l with
  | dense l =>
    obtain ⟨w, b, rfl⟩ := two_of_length (ps := ps) (by simpa [AnyLayer.params] using congrArg List.length hl)
    have h'' := h
    obtain ⟨h1, h2, h3, h4, h5⟩ := h''
    have hw : ∀ k, |vec w k - vec l.weights k| ≤ δ := fun k => hp 0 k
    have hb : ∀ k, |vec b k - vec l.biases k| ≤ δ := fun k => hp 1 k
    have h0 : 0 ≤ layerDrift δ e x (.dense l) := by
      unfold layerDrift
      have : 0 ≤ ⨆ i : Fin l.outputSize, ∑ j ∈ range l.inputSize, |mat l.weights l.inputSize i j| :=
        Real.iSup_nonneg fun i => Finset.sum_nonneg fun j _ => abs_nonneg _
      positivity
    refine ⟨h0, _, _, dense_yields h hx, dense_yields h' hx', by simp, by simp, close_tab h0 fun i hi => ?_⟩
    have hs := sum_close (range n) (w := fun j => mat l.weights n i j) (w' := fun j => mat w n i j)
      (x := vec x) (x' := vec x') (δ := δ) (e := e) (fun j _ => hw _) (fun j _ => hc j)
    have hsup : ∑ j ∈ range n, |mat l.weights n i j|
        ≤ ⨆ i : Fin l.outputSize, ∑ j ∈ range l.inputSize, |mat l.weights l.inputSize i j| := by
      rw [h1]
      exact le_sup_fin (fun i : Fin l.outputSize => ∑ j ∈ range n, |mat l.weights n i j|) ⟨i, by omega⟩
    have e1 : vec b i + ∑ j ∈ range n, mat w n i j * vec x' j
        - (vec l.biases i + ∑ j ∈ range n, mat l.weights n i j * vec x j)
        = (vec b i - vec l.biases i) + (∑ j ∈ range n, mat w n i j * vec x' j
          - ∑ j ∈ range n, mat l.weights n i j * vec x j) := by ring
    show |vec b i + ∑ j ∈ range n, mat w n i j * vec x' j
        - (vec l.biases i + ∑ j ∈ range n, mat l.weights n i j * vec x j)| ≤ _
    rw [e1]
    refine (abs_add_le _ _).trans ?_
    have hbi := hb i
    simp only [layerDrift]
    rw [card_range] at hs
    have := mul_le_mul_of_nonneg_right hsup he
    rw [h1] at this ⊢
    nlinarith
  | conv l =>
    obtain ⟨w, b, rfl⟩ := two_of_length (ps := ps) (by simpa [AnyLayer.params] using congrArg List.length hl)
    obtain ⟨g, hg, h1, h2, h3, h4, h5, h6, h7, h8⟩ := h
    have hw : ∀ k, |vec w k - vec l.weights k| ≤ δ := fun k => hp 0 k
    have h0 : 0 ≤ layerDrift δ e x (.conv l) := by
      unfold layerDrift
      have a1 : 0 ≤ ⨆ j : Fin x.length, |vec x j| := Real.iSup_nonneg fun i => abs_nonneg _
      have a2 : 0 ≤ ⨆ f : Fin l.nFilters, ∑ a ∈ range l.kernel.h, ∑ b ∈ range l.kernel.w,
          ∑ ch ∈ range l.input.c,
          |vec l.weights (((a * l.kernel.w + b) * l.input.c + ch) * l.nFilters + f)| :=
        Real.iSup_nonneg fun i => Finset.sum_nonneg fun j _ => Finset.sum_nonneg fun j _ =>
          Finset.sum_nonneg fun j _ => abs_nonneg _
      positivity
    have hl' : w.length = l.weights.length := by
      simp [AnyLayer.params] at hl; exact hl.1
    refine ⟨h0, _, _, conv_yields hg h1 h2 h3 h4 h5 h6 h7 h8 hx,
      conv_yields (l := { l with weights := w, biases := b }) hg h1 h2 h3 h4 (by rw [hl']; exact h5) h6 h7 h8 hx',
      by simp, by simp, close_tab h0 fun i hi => ?_⟩
    unfold convOut
    have hf : i % l.nFilters < l.nFilters := (out_bounds (h7 ▸ hi)).2.2.1
    refine (corr_close he hδ (Real.iSup_nonneg fun _ => abs_nonneg _) hc hw (le_sup_vec x) _ _ _).trans ?_
    simp only [layerDrift]
    rw [h1, h2]
    refine add_le_add_right ?_ _ |>.trans (le_refl _)
    refine mul_le_mul_of_nonneg_right ?_ he
    refine add_le_add_left ?_ _ |>.trans (le_refl _)
    exact le_sup_fin (fun f : Fin l.nFilters => ∑ a ∈ range g.kh, ∑ b ∈ range g.kw, ∑ ch ∈ range g.src.c,
          |vec l.weights (((a * g.kw + b) * g.src.c + ch) * l.nFilters + f)|) ⟨_, hf⟩
  | maxPool l =>
    obtain ⟨g, hg, hq, h1, h2, h3, h6, h7, h8⟩ := h
    rw [setParams_maxPool]
    refine ⟨he, _, _, maxPool_yields hg hq h1 h2 h3 h6 h7 h8 hx, maxPool_yields hg hq h1 h2 h3 h6 h7 h8 hx',
      by simp, by simp, close_tab he fun i _ => ?_⟩
    unfold poolOut
    refine runMax_close ?_ fun ki _ => hc _
    obtain ⟨a1, a2⟩ : 0 < g.kh ∧ 0 < g.kw := ⟨hg.kh_pos, hg.kw_pos⟩
    exact Nat.mul_pos a1 a2
  | avgPool l =>
    obtain ⟨g, hg, hq, h1, h2, h3, h6, h7, h8⟩ := h
    rw [setParams_avgPool]
    exact ⟨he, _, _, avgPool_yields hg hq h1 h2 h3 h6 h7 h8 hx, avgPool_yields hg hq h1 h2 h3 h6 h7 h8 hx',
      by simp, by simp, close_tab he fun i _ => avg_close he fun a b => hc _⟩
  | act f l =>
    rw [setParams_nil]
    have point : ∀ (φ : ℝ → ℝ) (C : ℝ), 0 ≤ C → f.isLinear = false → f.forward = Act.Layer.forwardWith φ →
        layerDrift δ e x (.act f l) = C * e → (∀ x y, |φ y - φ x| ≤ C * |y - x|) → m = n →
        l.output.length = n → 0 ≤ layerDrift δ e x (.act f l) ∧ ∃ y y', Yields (.act f l) x y ∧
          Yields (.act f l) x' y' ∧ y.length = m ∧ y'.length = m ∧ Close (layerDrift δ e x (.act f l)) y y' := by
      intro φ C hC hf hφ hd hL hm hn
      subst hm
      have h0 : 0 ≤ layerDrift δ e x (.act f l) := by rw [hd]; positivity
      refine ⟨h0, _, _, pointwise_yields hf hφ hn hx, pointwise_yields hf hφ hn hx', by simp, by simp,
        close_tab h0 fun i _ => (hL _ _).trans ?_⟩
      rw [hd]
      exact mul_le_mul_of_nonneg_left (hc i) hC
    cases f with
    | relu => exact point _ 1 zero_le_one rfl rfl (by simp [layerDrift]) (by simpa using relu_close) h.1 h.2
    | elu a => exact point _ (max 1 |a|) (by positivity) rfl rfl rfl (elu_close a) h.1 h.2
    | tanh => exact point _ 1 zero_le_one rfl rfl (by simp [layerDrift]) (by simpa using tanh_close) h.1 h.2
    | sigmoid =>
      exact point _ (1 / 4) (by norm_num) rfl rfl (by simp [layerDrift]; ring) sigmoid_close h.1 h.2
    | linear =>
      have hm : m = n := h
      have hy : ∀ z : List ℝ, Yields (.act .linear l) z z := by
        intro z a' ha'
        cases a' <;> simp [core] at ha'
        case act f' l' =>
        obtain ⟨rfl, _⟩ := ha'
        exact ⟨.act .linear { l' with output := z }, rfl, rfl⟩
      exact ⟨he, x, x', hy x, hy x', by omega, by omega, hc⟩
    | softmax =>
      obtain ⟨h1, h2, h3⟩ := h
      subst h1
      have h0 : 0 ≤ layerDrift δ e x (.act .softmax l) := by unfold layerDrift; positivity
      exact ⟨h0, _, _, softmax_yields h3 h2 hx, softmax_yields h3 h2 hx', by simp, by simp,
        close_tab h0 fun i hi => softmax_close h3 (fun j _ => hc j) hi⟩
  | dropout mx raw l => exact absurd h (by simp [Maps])
  | rnn f f1 l => exact absurd h (by simp [Maps])
  | loss f l => exact absurd h (by simp [Maps])

theorem setParams_again {n m : Nat} {l : AnyLayer} (h : Maps n m l) {ps qs : List (List ℝ)}
    (hl : ps.map List.length = l.params.map List.length) (hl' : qs.map List.length = l.params.map List.length) :
    (l.setParams ps).setParams qs = l.setParams qs := by
  cases l with
  | dense l =>
    obtain ⟨w, b, rfl⟩ := two_of_length (ps := ps) (by simpa [AnyLayer.params] using congrArg List.length hl)
    obtain ⟨w', b', rfl⟩ := two_of_length (ps := qs) (by simpa [AnyLayer.params] using congrArg List.length hl')
    rfl
  | conv l =>
    obtain ⟨w, b, rfl⟩ := two_of_length (ps := ps) (by simpa [AnyLayer.params] using congrArg List.length hl)
    obtain ⟨w', b', rfl⟩ := two_of_length (ps := qs) (by simpa [AnyLayer.params] using congrArg List.length hl')
    rfl
  | maxPool l => rw [setParams_maxPool]
  | avgPool l => rw [setParams_avgPool]
  | act f l => rw [setParams_nil]
  | dropout mx raw l => exact absurd h (by simp [Maps])
  | rnn f f1 l => exact absurd h (by simp [Maps])
  | loss f l => exact absurd h (by simp [Maps])

theorem theta_close {ls : List AnyLayer} {n m : Nat} (h : MapsAll n m ls) {δ : ℝ} (hδ : 0 ≤ δ) :
    ∀ {θ θ' : Theta} {e : ℝ} {x x' : List ℝ}, FitsTheta ls θ → FitsTheta ls θ' → NearTheta δ θ θ' → 0 ≤ e →
      x.length = n → x'.length = n → Close e x x' →
      ∃ y y', YieldsAll (withTheta ls θ) x y ∧ YieldsAll (withTheta ls θ') x' y' ∧ y.length = m ∧
        y'.length = m ∧ Close (drift δ (withTheta ls θ) x e) y y' := by
  induction h with
  | nil n =>
    intro θ θ' e x x' f f' _ _ hx hx' hc
    exact ⟨x, x', .nil x, .nil x', hx, hx', hc⟩
  | @cons n k m l ls h1 _ ih =>
    intro θ θ' e x x' f f' hn he hx hx' hc
    unfold FitsTheta at f f'
    cases θ with
    | nil => simp at f
    | cons p θ =>
    cases θ' with
    | nil => simp at f'
    | cons q θ' =>
    simp only [List.map_cons, List.cons.injEq] at f f'
    have e1 := (params_setParams (a := l) (ps := p) (by simpa using congrArg List.length f.1)).1
    obtain ⟨h0, z, z', y1, y2, lz, lz', cz⟩ := layer_close (maps_setParams h1 f.1) (ps := q)
      (by rw [e1, f.1, f'.1]) hδ he (by intro b k; rw [e1]; exact hn 0 b k) hx hx' hc
    rw [setParams_again h1 f.1 f'.1] at y2
    obtain ⟨y, y', a1, a2, a3, a4, a5⟩ := ih (θ := θ) (θ' := θ') f.2 f'.2 (fun j b k => hn (j + 1) b k) h0 lz lz' cz
    refine ⟨y, y', .cons y1 a1, .cons y2 a2, a3, a4, ?_⟩
    show Close (drift δ (withTheta ls θ) (prediction [l.setParams p] x) _) y y'
    rw [prediction_of (.cons y1 (.nil z))]
    exact a5

end Verif.Net

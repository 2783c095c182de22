import Verif.Proofs.BackLayer

/-! The convolution layer: `backward` is the transpose of the derivative of `forward`. -/

namespace Verif.Net
open Verif.Spec Verif.Slide Finset

noncomputable section

theorem sum_split (a b : Nat) (H : Nat → ℝ) :
    ∑ i ∈ range (a * b), H i = ∑ r ∈ range a, ∑ c ∈ range b, H (r * b + c) := by
  induction a with
  | zero => simp
  | succ a ih => rw [Nat.succ_mul, Finset.sum_range_add, ih, Finset.sum_range_succ]

theorem sum_split3 (R C F : Nat) (H : Nat → ℝ) : ∑ i ∈ range (R * C * F), H i
    = ∑ r ∈ range R, ∑ c ∈ range C, ∑ f ∈ range F, H ((r * C + c) * F + f) := by
  rw [sum_split, sum_split]

/-- The output of a convolution, by cell number. -/
def convOut (g : Geom) (nf : Nat) (x w : Nat → ℝ) (i : Nat) : ℝ :=
  corr g nf x w (i / nf / g.cols) (i / nf % g.cols) (i % nf)

theorem convOut_at {g : Geom} {nf : Nat} (x w : Nat → ℝ) {r c f : Nat} (hc : c < g.cols) (hf : f < nf) :
    convOut g nf x w ((r * g.cols + c) * nf + f) = corr g nf x w r c f := by
  have e1 : ((r * g.cols + c) * nf + f) / nf = r * g.cols + c := by
    rw [Nat.mul_comm, Nat.mul_add_div (by omega), Nat.div_eq_of_lt hf, Nat.add_zero]
  have e2 : ((r * g.cols + c) * nf + f) % nf = f := by
    rw [Nat.mul_comm, Nat.mul_add_mod, Nat.mod_eq_of_lt hf]
  have e3 : (r * g.cols + c) / g.cols = r := by
    rw [Nat.mul_comm, Nat.mul_add_div (by omega), Nat.div_eq_of_lt hc, Nat.add_zero]
  have e4 : (r * g.cols + c) % g.cols = c := by
    rw [Nat.mul_comm, Nat.mul_add_mod, Nat.mod_eq_of_lt hc]
  unfold convOut
  rw [e1, e2, e3, e4]

theorem sum_convOut {g : Geom} {nf : Nat} (gr x w : Nat → ℝ) :
    ∑ i ∈ range (g.rows * g.cols * nf), gr i * convOut g nf x w i = convObjective g nf gr x w := by
  rw [sum_split3]
  unfold convObjective
  refine Finset.sum_congr rfl fun r _ => Finset.sum_congr rfl fun c hc =>
    Finset.sum_congr rfl fun f hf => ?_
  rw [convOut_at _ _ (by simpa using hc) (by simpa using hf)]

/-- Transposing: the objective at `v` is the input gradient times `v`. -/
theorem conv_transpose {g : Geom} {nf : Nat} (gr x v k : Nat → ℝ) :
    ∑ q ∈ range (g.src.h * g.src.w * g.src.c),
      (∑ r ∈ range g.rows, ∑ c ∈ range g.cols, ∑ f ∈ range nf,
          ∑ a ∈ range g.kh, ∑ b ∈ range g.kw, ∑ ch ∈ range g.src.c,
            convLeaf g nf gr x k r c f a b ch).1 q * v q
      = convObjective g nf gr v k := by
  simp only [fst_sum, Finset.sum_apply, Finset.sum_mul]
  unfold convObjective
  rw [Finset.sum_comm]
  refine Finset.sum_congr rfl fun r _ => ?_
  rw [Finset.sum_comm]
  refine Finset.sum_congr rfl fun c _ => ?_
  rw [Finset.sum_comm]
  refine Finset.sum_congr rfl fun f _ => ?_
  unfold corr
  rw [Finset.mul_sum, Finset.sum_comm]
  refine Finset.sum_congr rfl fun a _ => ?_
  rw [Finset.mul_sum, Finset.sum_comm]
  refine Finset.sum_congr rfl fun b _ => ?_
  rw [Finset.mul_sum, Finset.sum_comm]
  refine Finset.sum_congr rfl fun ch hch => ?_
  show ∑ q ∈ _, (convLeaf g nf gr x k r c f a b ch).1 q * v q
    = _ * (padded v g.src (rowOf g r a) (colOf g c b) ch * _)
  unfold convLeaf padded
  by_cases hin : inside g.src (rowOf g r a) (colOf g c b)
  · have hin' := hin
    unfold inside at hin'
    rw [if_pos hin, if_pos hin']
    have hlt : cellIdx g.src (rowOf g r a).toNat (colOf g c b).toNat ch
        < g.src.h * g.src.w * g.src.c :=
      cellIdx_lt (by omega) (by omega) (by simpa using hch)
    rw [Finset.sum_eq_single_of_mem _ (Finset.mem_range.mpr hlt)]
    · unfold at1
      dsimp only
      rw [if_pos rfl]
      ring
    · intro q _ hne
      unfold at1
      dsimp only
      rw [if_neg hne, zero_mul]
  · have hin' := hin
    unfold inside at hin'
    rw [if_neg hin, if_neg hin']
    simp

theorem corr_input_curve {g : Geom} {nf : Nat} (X : ℝ → Nat → ℝ) (X' : Nat → ℝ) (t0 : ℝ)
    (w : Nat → ℝ) (h : ∀ j, j < g.src.h * g.src.w * g.src.c → HasDerivAt (fun t => X t j) (X' j) t0)
    (r c f : Nat) : HasDerivAt (fun t => corr g nf (X t) w r c f) (corr g nf X' w r c f) t0 := by
  unfold corr
  refine HasDerivAt.fun_sum fun a _ => HasDerivAt.fun_sum fun b _ => HasDerivAt.fun_sum fun ch hch => ?_
  refine HasDerivAt.mul_const ?_ _
  unfold padded
  split
  · next hin =>
    refine h _ (cellIdx_lt ?_ ?_ (by simpa using hch)) <;> omega
  · exact hasDerivAt_const _ _

theorem corr_weight_curve {g : Geom} {nf : Nat} (W : ℝ → Nat → ℝ) (W' : Nat → ℝ) (t0 : ℝ)
    (x : Nat → ℝ) (h : ∀ j, HasDerivAt (fun t => W t j) (W' j) t0)
    (r c f : Nat) : HasDerivAt (fun t => corr g nf x (W t) r c f) (corr g nf x W' r c f) t0 := by
  unfold corr
  refine HasDerivAt.fun_sum fun a _ => HasDerivAt.fun_sum fun b _ => HasDerivAt.fun_sum fun ch hch => ?_
  exact (h _).const_mul _

theorem conv_yields {l : ConvLayer ℝ} {n m : Nat} {g : Geom} (hg : g.Fits) (h1 : l.input = g.src)
    (h2 : l.kernel = ⟨g.kh, g.kw⟩) (h3 : l.stride = ⟨g.sh, g.sw⟩) (h4 : l.padding = ⟨g.ph, g.pw⟩)
    (h5 : l.weights.length = g.kh * g.kw * g.src.c * l.nFilters) (h6 : l.out.length = m)
    (h7 : m = g.rows * g.cols * l.nFilters) (h8 : n = g.src.h * g.src.w * g.src.c) {x : List ℝ}
    (hx : x.length = n) :
    Yields (.conv l) x (tab m (convOut g l.nFilters (vec x) (vec l.weights))) := by
  intro a' ha'
  cases a' <;> simp [core] at ha'
  case conv l' =>
  obtain ⟨l1, l2, l3, l4, l5, l6, l7, l8, l9, l10, l11, l12, l13⟩ := l'
  simp at ha'
  obtain ⟨rfl, rfl, rfl, rfl, rfl, rfl, rfl, rfl, e⟩ := ha'
  obtain ⟨d, e1, e2, e3, _⟩ := crossCorrelation_spec hg (nf := l.nFilters) (dst := l12)
    (src := x) (k := l.weights) (by omega) (by omega) (by omega)
  have hd : d = tab m (convOut g l.nFilters (vec x) (vec l.weights)) := by
    refine ext_rows (rows := g.rows) (cols := g.cols) (n := l.nFilters) (by omega)
      (by rw [tab_length, h7]) e3 ?_
    intro r c f hr hc hf
    rw [tab_getElem? _ (by rw [h7]; exact out_lt hr hc hf), convOut_at _ _ hc hf]
  refine ⟨.conv ⟨l.input, l.output, l.kernel, l.nFilters, l.stride, l.padding, l.weights, l.biases,
    l9, l10, l11, d, l13⟩, ?_, by rw [hd]; rfl⟩
  show keep _ (ConvLayer.forward _ _) _ = _
  unfold ConvLayer.forward
  dsimp only
  rw [h1, h2, h3, h4]
  have e1' : crossCorrelation l12 x g.src l.weights ⟨g.kh, g.kw⟩ l.nFilters ⟨g.sh, g.sw⟩ ⟨g.ph, g.pw⟩
    = .ok d := e1
  rw [e1']
  rfl

theorem conv_adjoint {l : ConvLayer ℝ} {n m : Nat} (h : Maps n m (.conv l)) {x : List ℝ}
    (hx : x.length = n) : ∃ y, Adjoint n m (.conv l) x y := by
  obtain ⟨g, hg, h1, h2, h3, h4, h5, h6, h7, h8⟩ := h
  refine ⟨_, conv_yields hg h1 h2 h3 h4 h5 h6 h7 h8 hx, by simp, ?_⟩
  intro gr hgr
  let G := ∑ r ∈ range g.rows, ∑ c ∈ range g.cols, ∑ f ∈ range l.nFilters,
    ∑ a ∈ range g.kh, ∑ b ∈ range g.kw, ∑ ch ∈ range g.src.c,
      convLeaf g l.nFilters (vec gr) (vec x) (vec l.weights) r c f a b ch
  refine ⟨tab n G.1, fun b k => if b = 0 then G.2 k else 0, by simp, ?_, ?_, ?_⟩
  · intro l' hc hgrad hout
    cases l' <;> simp [core] at hc
    case conv l' =>
    obtain ⟨l1, l2, l3, l4, l5, l6, l7, l8, l9, l10, l11, l12, l13⟩ := l'
    simp at hc
    obtain ⟨rfl, rfl, rfl, rfl, rfl, rfl, rfl, rfl, e⟩ := hc
    obtain ⟨r1, r2, r3, r4⟩ := hgrad
    dsimp only at r1 r2 r3 r4
    have key := convGrad_eq hg (nf := l.nFilters) (grads := gr) (src := x)
      (k := l.weights) (N1 := n) (N2 := l9.length)
      (by omega) (by omega) (by omega) (by omega) (by omega) ((0 : Nat → ℝ), vec l9)
    simp only [] at key
    have e1 : List.replicate n (0 : ℝ) = tab n (0 : Nat → ℝ) := by
      unfold tab; simp [Pi.zero_def]
    rw [← e1, ← eq_tab l9] at key
    have key' : kernelSlide (convGradOp gr x g.src l.weights ⟨g.kh, g.kw⟩ l.nFilters)
        g.src ⟨g.kh, g.kw⟩ ⟨g.sh, g.sw⟩ ⟨g.ph, g.pw⟩ (List.replicate n (0 : ℝ), l9)
        = .ok (tab n G.1, tab l9.length (vec l9 + G.2)) := by
      refine Eq.trans key ?_
      show Exec.ok (tab n (0 + G.1), tab l9.length (vec l9 + G.2)) = _
      rw [zero_add]
    obtain ⟨bg, hbg1, hbg2⟩ : ∃ bg, convBiasGrads gr l10 l.output l.nFilters = .ok bg ∧
        bg.length = l.nFilters := by
      refine ⟨_, convBiasGrads_eq (by omega) r3, by simp⟩
    have hbk : (AnyLayer.setLastInput x (.conv ⟨l.input, l.output, l.kernel, l.nFilters, l.stride,
        l.padding, l.weights, l.biases, l9, l10, l11, l12, l13⟩)).backward gr
        = .ok (.conv ⟨l.input, l.output, l.kernel, l.nFilters, l.stride,
        l.padding, l.weights, l.biases, tab l9.length (vec l9 + G.2), bg, tab n G.1, l12, x⟩, none) := by
      show keep _ (ConvLayer.backward _ gr) _ = _
      unfold ConvLayer.backward
      dsimp only [AnyLayer.setLastInput]
      rw [hbg1, Exec.bind_ok, h1, h2, h3, h4, r1, key', Exec.bind_ok]
      rfl
    refine ⟨_, hbk, rfl, ⟨by simp, by simpa using r2, hbg2, r4⟩, hout, ?_⟩
    intro b k hb _ hk
    have hb : b = 0 := hb
    subst hb
    have hk' : k < l9.length := by
      have : k < l.weights.length := hk
      omega
    show vec (tab _ _) k = vec l9 k + _
    rw [vec_tab _ hk']
    simp
  · intro _ X X' t0 hX0 hXl hX
    refine ⟨_, convOut g l.nFilters X' (vec l.weights),
      fun t => ⟨conv_yields hg h1 h2 h3 h4 h5 h6 h7 h8 (hXl t), by simp⟩, by rw [hX0], ?_, ?_⟩
    · intro i hi
      rw [vec_tab_fun (fun t => convOut g l.nFilters (vec (X t)) (vec l.weights)) hi]
      exact corr_input_curve (fun t => vec (X t)) X' t0 _ (by rw [← h8]; exact hX) _ _ _
    · rw [h7, sum_convOut]
      rw [← conv_transpose (vec gr) (vec x) X' (vec l.weights), ← h8]
      apply Finset.sum_congr rfl
      intro q hq
      rw [vec_tab _ (by simpa using hq)]
  · intro b k hb _ hk
    have hb : b = 0 := hb
    subst hb
    have hk' : k < l.weights.length := hk
    have hl : ∀ s, Yields (.conv { l with weights := l.weights.set k s }) x _ := fun s =>
      conv_yields (l := { l with weights := l.weights.set k s }) hg h1 h2 h3 h4
        (by simpa using h5) h6 h7 h8 hx
    refine ⟨_, convOut g l.nFilters (vec x) (fun j => if j = k then 1 else 0),
      fun s => ⟨hl s, by simp⟩, ?_, ?_, ?_⟩
    · show tab m (convOut g l.nFilters (vec x) (vec (l.weights.set k (vec l.weights k)))) = _
      rw [set_vec hk']
    · intro i hi
      dsimp only
      rw [vec_tab_fun (fun s => convOut g l.nFilters (vec x) (vec (l.weights.set k s))) hi]
      exact corr_weight_curve (fun s => vec (l.weights.set k s)) _ _ _ (fun j => curve_set hk' j) _ _ _
    · rw [h7, sum_convOut]
      beta_reduce
      rw [if_pos rfl]
      have d1 := conv_weight_deriv g l.nFilters (vec gr) (vec x) (vec l.weights) k
      have d2 : HasDerivAt (fun t => convObjective g l.nFilters (vec gr) (vec x) (replace (vec l.weights) k t))
          (convObjective g l.nFilters (vec gr) (vec x) (fun j => if j = k then 1 else 0))
          (vec l.weights k) := by
        unfold convObjective
        refine HasDerivAt.fun_sum fun r _ => HasDerivAt.fun_sum fun c _ => HasDerivAt.fun_sum fun f _ => ?_
        refine HasDerivAt.const_mul _ ?_
        refine corr_weight_curve (fun s => replace (vec l.weights) k s) _ _ _ (fun j => ?_) _ _ _
        unfold replace
        by_cases hj : j = k
        · simp only [if_pos hj]; exact hasDerivAt_id _
        · simp only [if_neg hj]; exact hasDerivAt_const _ _
      exact d2.unique d1

end

end Verif.Net

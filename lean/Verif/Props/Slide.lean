import Verif.Proofs.Pool

/-
Properties C08-C14: sliding-window kernels, convolution and pooling layers.
-/

namespace Verif.Props
open Verif.Spec Verif.Slide Finset

/-! ### C09: output sides -/

/-- C09, the part that holds: for a non-empty input, a non-zero stride and a kernel that fits
into the padded input, both the layer constructors and the kernels use the number of
placements.  Missing for the full property: kernels that do not fit (refuted below), a zero
stride and an empty but padded input. -/
theorem C09_output_side_partial (input kernel stride padding : Nat) (hi : 0 < input)
    (hs : 0 < stride) (hk0 : 0 < kernel) (hk : kernel ≤ input + 2 * padding)
    (h64 : input + 2 * padding < 2 ^ 64) :
    outputSide input kernel stride padding = .ok (placements input kernel stride padding) ∧
    slideSide input kernel stride padding = placements input kernel stride padding :=
  ⟨outputSide_eq hi hs hk0 hk h64, slideSide_eq hi hs hk0 hk h64⟩

/-- `r` is one of the counted placements exactly if the kernel at `r * stride` ends inside. -/
theorem C09_placements_closed_form (input kernel stride padding : Nat) (hs : 0 < stride)
    (hk : kernel ≤ input + 2 * padding) :
    placements input kernel stride padding = (input + 2 * padding - kernel) / stride + 1 :=
  placements_eq hs hk

/-- C09 is false for kernels larger than the padded input: the subtraction wraps around and
the layer asks for about 2^64 rows, although nothing fits. -/
theorem C09_output_side_refuted :
    placements 2 4 1 0 = 0 ∧ outputSide 2 4 1 0 = .ok (2 ^ 64 - 1) ∧
    slideSide 2 4 1 0 = 2 ^ 64 - 1 := by
  refine ⟨by decide, by decide, by decide⟩

/-- C09: every kernel larger than the padded input wraps around. -/
theorem C09_too_large_wraps (input kernel stride padding : Nat) (hi : 0 < input)
    (hs : 0 < stride) (hk : input + 2 * padding < kernel) (hk64 : kernel < 2 ^ 64) :
    placements input kernel stride padding = 0 ∧
    outputSide input kernel stride padding
      = .ok (wrap ((2 ^ 64 - (kernel - (input + 2 * padding))) / stride + 1)) := by
  constructor
  · unfold placements
    rw [card_eq_zero, filter_eq_empty_iff]
    intro r _
    omega
  · rw [outputSide, if_neg (by omega), if_neg (by omega)]
    have h1 : wrap kernel = kernel := Nat.mod_eq_of_lt hk64
    rw [h1]
    have : wrap (input + (2 ^ 64 - kernel) + 2 * padding)
        = 2 ^ 64 - (kernel - (input + 2 * padding)) := by
      unfold wrap
      rw [Nat.mod_eq_of_lt (by omega)]
      omega
    rw [this]

/-- C09: a zero stride divides by zero in the layer constructor, while the kernels use 1. -/
theorem C09_zero_stride (input kernel padding : Nat) (hi : 0 < input) :
    outputSide input kernel 0 padding = .ub := by
  rw [outputSide, if_neg (by omega), if_pos rfl]

/-- Non-vacuity of C09. -/
example : outputSide 7 3 2 1 = .ok 4 ∧ placements 7 3 2 1 = 4 := by decide

/-! ### C08: cross-correlation -/

/-- C08: on every geometry that fits, `cross_correlation` returns, every output cell holds the
zero-padded sliding dot product, and no cell behind the output is touched.  (`.ok` also says
that no access leaves the buffers.) -/
theorem C08_cross_correlation {α : Type} [CommSemiring α] (g : Geom) (hg : g.Fits) (nf : Nat)
    (dst src k : List α) (hdst : g.rows * g.cols * nf ≤ dst.length)
    (hsrc : g.src.h * g.src.w * g.src.c ≤ src.length)
    (hk : g.kh * g.kw * g.src.c * nf ≤ k.length) :
    ∃ d, crossCorrelation dst src g.src k ⟨g.kh, g.kw⟩ nf ⟨g.sh, g.sw⟩ ⟨g.ph, g.pw⟩ = .ok d ∧
      d.length = dst.length ∧
      (∀ r c f, r < g.rows → c < g.cols → f < nf →
        d[(r * g.cols + c) * nf + f]? = some (corr g nf (vec src) (vec k) r c f)) ∧
      (∀ q, g.rows * g.cols * nf ≤ q → d[q]? = dst[q]?) :=
  crossCorrelation_spec hg hdst hsrc hk

/-- A 2x3 image with 1 channel, kernel 2x2, stride (1,2), padding (1,0). -/
def exGeom : Geom := ⟨⟨2, 3, 1⟩, 2, 2, 1, 2, 1, 0⟩

theorem exGeom_fits : exGeom.Fits :=
  ⟨by decide, by decide, by decide, by decide, by decide, by decide, by decide, by decide,
    by decide, by decide⟩

/-- Non-vacuity of C08: the hypotheses hold of `exGeom`, which has 3x1 outputs. -/
example : exGeom.rows = 3 ∧ exGeom.cols = 1 ∧
    crossCorrelation (α := Int) [0, 0, 0] [1, 2, 3, 4, 5, 6] ⟨2, 3, 1⟩ [1, 10, 100, 1000] ⟨2, 2⟩ 1
      ⟨1, 2⟩ ⟨1, 0⟩ = .ok [2100, 5421, 54] := by decide

/-! ### C10: pooling forward -/

/-- C10: `max_pool` writes for each output position and channel a value of the window that no
value of the window exceeds. -/
theorem C10_max_pool {α : Type} [LinearOrder α] [Zero α] (g : Geom) (hg : g.Fits) (hp : g.Pool)
    (dst src : List α) (hdst : g.rows * g.cols * g.src.c ≤ dst.length)
    (hsrc : g.src.h * g.src.w * g.src.c ≤ src.length) :
    ∃ d, maxPool dst src g.src ⟨g.kh, g.kw⟩ ⟨g.sh, g.sw⟩ = .ok d ∧ d.length = dst.length ∧
      (∀ r c ch, r < g.rows → c < g.cols → ch < g.src.c → ∃ M,
        d[(r * g.cols + c) * g.src.c + ch]? = some M ∧
        (∃ a b, a < g.kh ∧ b < g.kw ∧ src[windowCell g r c a b ch]? = some M) ∧
        (∀ a b, a < g.kh → b < g.kw → ∃ v, src[windowCell g r c a b ch]? = some v ∧ v ≤ M)) ∧
      (∀ q, g.rows * g.cols * g.src.c ≤ q → d[q]? = dst[q]?) := by
  obtain ⟨d, h1, h2, h3, h4⟩ := maxPool_spec hg hp hdst hsrc
  refine ⟨d, h1, h2, ?_, h4⟩
  intro r c ch hr hc hch
  have hK : 1 ≤ g.kh * g.kw := Nat.mul_pos hg.kh_pos hg.kw_pos
  refine ⟨_, h3 r c ch hr hc hch, ?_, ?_⟩
  · obtain ⟨⟨i, hi, e⟩, _⟩ := runMax_spec (fun ki => vec src (cellNo g r c ch ki)) hK
    have hb := ki_bounds hi
    refine ⟨i / g.kw, i % g.kw, hb.1, hb.2, ?_⟩
    rw [e, getElem?_vec (lt_of_lt_of_le (cell_lt hg hp hr hc hb.1 hb.2 hch) hsrc)]
    rfl
  · intro a b ha hb
    refine ⟨_, getElem?_vec (lt_of_lt_of_le (cell_lt hg hp hr hc ha hb hch) hsrc), ?_⟩
    have := (runMax_spec (fun ki => vec src (cellNo g r c ch ki)) hK).2 (a * g.kw + b)
      (rowmajor_lt ha hb)
    have e1 : (a * g.kw + b) / g.kw = a := by
      rw [Nat.mul_comm, Nat.mul_add_div (by omega), Nat.div_eq_of_lt hb, Nat.add_zero]
    have e2 : (a * g.kw + b) % g.kw = b := by
      rw [Nat.mul_comm, Nat.mul_add_mod, Nat.mod_eq_of_lt hb]
    simp only [cellNo, e1, e2] at this
    exact this

/-- C10: `avg_pool` writes the arithmetic mean of each window (exact arithmetic). -/
theorem C10_avg_pool {α : Type} [Semifield α] (g : Geom) (hg : g.Fits) (hp : g.Pool)
    (dst src : List α) (hdst : g.rows * g.cols * g.src.c ≤ dst.length)
    (hsrc : g.src.h * g.src.w * g.src.c ≤ src.length) :
    ∃ d, avgPool dst src g.src ⟨g.kh, g.kw⟩ ⟨g.sh, g.sw⟩ = .ok d ∧ d.length = dst.length ∧
      (∀ r c ch, r < g.rows → c < g.cols → ch < g.src.c →
        d[(r * g.cols + c) * g.src.c + ch]? =
          some ((∑ a ∈ range g.kh, ∑ b ∈ range g.kw, vec src (windowCell g r c a b ch))
            / ((g.kh * g.kw : Nat) : α))) ∧
      (∀ q, g.rows * g.cols * g.src.c ≤ q → d[q]? = dst[q]?) :=
  avgPool_spec hg hp hdst hsrc

/-- A 3x4 image with 2 channels, window 2x2, stride (1,2): 2x2 outputs per channel. -/
def exPool : Geom := ⟨⟨3, 4, 2⟩, 2, 2, 1, 2, 0, 0⟩

theorem exPool_fits : exPool.Fits ∧ exPool.Pool :=
  ⟨⟨by decide, by decide, by decide, by decide, by decide, by decide, by decide, by decide,
    by decide, by decide⟩, rfl, rfl⟩

/-- Non-vacuity of C10. -/
example : exPool.rows = 2 ∧ exPool.cols = 2 ∧
    maxPool (α := Int) [0, 0, 0, 0] [1, 2, 3, 4, 8, 7, 6, 5, 9, 0, 0, 0] ⟨3, 4, 1⟩ ⟨2, 2⟩ ⟨1, 2⟩
      = .ok [8, 6, 9, 6] := by decide

/-! ### The convolution layer -/

/-- The layer `l` has geometry `g` and buffers of the right lengths. -/
structure ConvOk {α : Type} (l : ConvLayer α) (g : Geom) : Prop where
  input : l.input = g.src
  output : l.output = ⟨g.rows, g.cols, l.nFilters⟩
  kernel : l.kernel = ⟨g.kh, g.kw⟩
  stride : l.stride = ⟨g.sh, g.sw⟩
  padding : l.padding = ⟨g.ph, g.pw⟩
  weights : l.weights.length = g.kh * g.kw * g.src.c * l.nFilters
  biases : l.biases.length = l.nFilters
  weightGrads : l.weightGrads.length = g.kh * g.kw * g.src.c * l.nFilters
  biasGrads : l.biasGrads.length = l.nFilters
  inputGrads : l.inputGrads.length = g.src.h * g.src.w * g.src.c
  out : l.out.length = g.rows * g.cols * l.nFilters

/-- C08: the constructor returns such a layer for every geometry that fits (so the hypotheses
of the layer theorems below are met by constructed layers). -/
theorem C08_conv_layer_constructed {α : Type} [Zero α] (g : Geom) (hg : g.Fits) (nf : Nat) :
    ∃ l : ConvLayer α, ConvLayer.mk' g.src ⟨g.kh, g.kw⟩ nf ⟨g.sh, g.sw⟩ ⟨g.ph, g.pw⟩ = .ok l ∧
      ConvOk l g ∧ l.nFilters = nf := by
  unfold ConvLayer.mk' convOutputShape
  rw [outputSide_eq hg.h_pos hg.sh_pos hg.kh_pos hg.kh_le hg.h_lt, Exec.bind_ok,
    outputSide_eq hg.w_pos hg.sw_pos hg.kw_pos hg.kw_le hg.w_lt, Exec.bind_ok]
  refine ⟨_, rfl, ?_, rfl⟩
  constructor <;> simp [Shape3.size, Geom.rows, Geom.cols]

/-- C08: `ConvolutionalLayer::forward` computes the cross-correlation with its kernels. -/
theorem C08_conv_layer_forward {α : Type} [CommSemiring α] (l : ConvLayer α) (g : Geom)
    (hg : g.Fits) (hl : ConvOk l g) (x : List α) (hx : x.length = g.src.h * g.src.w * g.src.c) :
    ∃ o, l.forward x = .ok { l with out := o } ∧ o.length = l.out.length ∧
      ∀ r c f, r < g.rows → c < g.cols → f < l.nFilters →
        o[(r * g.cols + c) * l.nFilters + f]?
          = some (corr g l.nFilters (vec x) (vec l.weights) r c f) := by
  obtain ⟨d, h1, h2, h3, _⟩ := crossCorrelation_spec hg (nf := l.nFilters) (dst := l.out)
    (src := x) (k := l.weights) (by rw [hl.out]) (by rw [hx]) (by rw [hl.weights])
  refine ⟨d, ?_, h2, h3⟩
  unfold ConvLayer.forward
  rw [hl.input, hl.kernel, hl.stride, hl.padding]
  have h1' : crossCorrelation l.out x g.src l.weights ⟨g.kh, g.kw⟩ l.nFilters ⟨g.sh, g.sw⟩
    ⟨g.ph, g.pw⟩ = .ok d := h1
  rw [h1']
  rfl

/-! ### C11: convolution backward -/

/-- `backward(gr)` after `training_forward(x)`. -/
def convBackwards {α : Type} [Zero α] [Add α] [Mul α] :
    ConvLayer α → List (List α × List α) → Exec (ConvLayer α)
  | l, [] => .ok l
  | l, (gr, x) :: rest => do
    let l' ← { l with lastInput := x }.backward gr
    convBackwards l' rest

theorem conv_backward_once (l : ConvLayer ℝ) (g : Geom) (hg : g.Fits) (hl : ConvOk l g)
    (gr : List ℝ) (hgr : gr.length = g.rows * g.cols * l.nFilters)
    (hx : l.lastInput.length = g.src.h * g.src.w * g.src.c) :
    ∃ l', l.backward gr = .ok l' ∧ ConvOk l' g ∧ l'.weights = l.weights ∧
      l'.nFilters = l.nFilters ∧
      (∀ q, q < g.src.h * g.src.w * g.src.c → HasDerivAt
        (fun t => convObjective g l.nFilters (vec gr) (replace (vec l.lastInput) q t)
          (vec l.weights))
        (vec l'.inputGrads q) (vec l.lastInput q)) ∧
      (∀ q, q < g.kh * g.kw * g.src.c * l.nFilters → HasDerivAt
        (fun t => convObjective g l.nFilters (vec gr) (vec l.lastInput)
          (replace (vec l.weights) q t))
        (vec l'.weightGrads q - vec l.weightGrads q) (vec l.weights q)) := by
  unfold ConvLayer.backward
  rw [hl.output, convBiasGrads_eq (show g.rows * g.cols * l.nFilters ≤ gr.length by omega) hl.biasGrads, Exec.bind_ok, hl.input,
    hl.kernel, hl.stride, hl.padding, hl.inputGrads]
  have e1 : List.replicate (g.src.h * g.src.w * g.src.c) (0 : ℝ)
      = tab (g.src.h * g.src.w * g.src.c) (0 : Nat → ℝ) := by
    unfold tab; simp [Pi.zero_def]
  have key := convGrad_eq hg (nf := l.nFilters) (grads := gr) (src := l.lastInput)
    (k := l.weights) (N1 := g.src.h * g.src.w * g.src.c) (N2 := l.weightGrads.length)
    (by omega) (by omega) (by rw [hl.weights]) (Nat.le_refl _) (by rw [hl.weightGrads])
    ((0 : Nat → ℝ), vec l.weightGrads)
  simp only [] at key
  rw [← e1, ← eq_tab l.weightGrads] at key
  have key' : kernelSlide (convGradOp gr l.lastInput g.src l.weights ⟨g.kh, g.kw⟩ l.nFilters)
      g.src ⟨g.kh, g.kw⟩ ⟨g.sh, g.sw⟩ ⟨g.ph, g.pw⟩
      (List.replicate (g.src.h * g.src.w * g.src.c) (0 : ℝ), l.weightGrads) = _ := key
  simp only []
  rw [key', Exec.bind_ok]
  refine ⟨_, rfl, ?_, rfl, rfl, ?_, ?_⟩
  · constructor <;> simp [hl.input, hl.output, hl.kernel, hl.stride, hl.padding, hl.weights,
      hl.biases, hl.weightGrads, hl.out]
  · intro q hq
    simp only []
    rw [vec_tab _ hq]
    refine (conv_input_deriv g l.nFilters (vec gr) (vec l.lastInput) (vec l.weights) q).congr_deriv ?_
    simp
  · intro q hq
    simp only []
    rw [vec_tab _ (by rw [hl.weightGrads]; exact hq)]
    refine (conv_weight_deriv g l.nFilters (vec gr) (vec l.lastInput) (vec l.weights) q).congr_deriv ?_
    simp

/-- C11: one backward call sets the input gradient to, and adds to the weight gradient, the
partial derivatives of `gr · forward(x)`. -/
theorem C11_conv_backward_is_gradient (l : ConvLayer ℝ) (g : Geom) (hg : g.Fits)
    (hl : ConvOk l g) (gr : List ℝ) (hgr : gr.length = g.rows * g.cols * l.nFilters)
    (hx : l.lastInput.length = g.src.h * g.src.w * g.src.c) :
    ∃ l', l.backward gr = .ok l' ∧
      (∀ q, q < g.src.h * g.src.w * g.src.c → HasDerivAt
        (fun t => convObjective g l.nFilters (vec gr) (replace (vec l.lastInput) q t)
          (vec l.weights))
        (vec l'.inputGrads q) (vec l.lastInput q)) ∧
      (∀ q, q < g.kh * g.kw * g.src.c * l.nFilters → HasDerivAt
        (fun t => convObjective g l.nFilters (vec gr) (vec l.lastInput)
          (replace (vec l.weights) q t))
        (vec l'.weightGrads q - vec l.weightGrads q) (vec l.weights q)) := by
  obtain ⟨l', h1, _, _, _, h2, h3⟩ := conv_backward_once l g hg hl gr hgr hx
  exact ⟨l', h1, h2, h3⟩

/-- C11: after any number of backward calls the weight gradients have grown by the derivative
of the sum of the objectives of all calls. -/
theorem C11_conv_backward_accumulates (g : Geom) (hg : g.Fits)
    (calls : List (List ℝ × List ℝ)) (l : ConvLayer ℝ) (hl : ConvOk l g)
    (hc : ∀ c ∈ calls, c.1.length = g.rows * g.cols * l.nFilters ∧
      c.2.length = g.src.h * g.src.w * g.src.c) :
    ∃ l', convBackwards l calls = .ok l' ∧
      (∀ q, q < g.kh * g.kw * g.src.c * l.nFilters → HasDerivAt
        (fun t => (calls.map fun c => convObjective g l.nFilters (vec c.1) (vec c.2)
          (replace (vec l.weights) q t)).sum)
        (vec l'.weightGrads q - vec l.weightGrads q) (vec l.weights q)) := by
  induction calls generalizing l with
  | nil => exact ⟨l, rfl, fun q _ => by simpa using hasDerivAt_const _ _⟩
  | cons c calls ih =>
    obtain ⟨gr, x⟩ := c
    have hc0 := hc (gr, x) (by simp)
    have hl1 : ConvOk { l with lastInput := x } g :=
      ⟨hl.1, hl.2, hl.3, hl.4, hl.5, hl.6, hl.7, hl.8, hl.9, hl.10, hl.11⟩
    obtain ⟨l1, h1, h2, hw, hn, _, h3⟩ := conv_backward_once { l with lastInput := x } g hg hl1 gr
      hc0.1 hc0.2
    simp only [] at hw hn h3
    obtain ⟨l2, h4, h5⟩ := ih l1 h2 (fun c hcc => by rw [hn]; exact hc c (by simp [hcc]))
    refine ⟨l2, by simp only [convBackwards, h1, Exec.bind_ok, h4], ?_⟩
    intro q hq
    rw [hn, hw] at h5
    have := (h3 q hq).add (h5 q hq)
    simp only [List.map_cons, List.sum_cons]
    refine this.congr_deriv ?_
    ring

/-- Non-vacuity of C11: a layer over `exGeom` with one filter whose buffers have the required
lengths. -/
example : ConvOk (α := ℝ)
    { input := ⟨2, 3, 1⟩, output := ⟨3, 1, 1⟩, kernel := ⟨2, 2⟩, nFilters := 1, stride := ⟨1, 2⟩,
      padding := ⟨1, 0⟩, weights := [1, 2, 3, 4], biases := [0], weightGrads := [0, 0, 0, 0],
      biasGrads := [0], inputGrads := [0, 0, 0, 0, 0, 0], out := [0, 0, 0],
      lastInput := [1, 2, 3, 4, 5, 6] } exGeom := by
  have h1 : exGeom.rows = 3 := by decide
  have h2 : exGeom.cols = 1 := by decide
  have h3 : exGeom.kh * exGeom.kw * exGeom.src.c = 4 := rfl
  have h4 : exGeom.src.h * exGeom.src.w * exGeom.src.c = 6 := rfl
  exact ⟨rfl, by rw [h1, h2], rfl, rfl, rfl, by rw [h3]; rfl, rfl, by rw [h3]; rfl, rfl, by rw [h4]; rfl,
    by rw [h1, h2]; rfl⟩

/-! ### C12: convolution bias -/

/-- The 1x1 layer used as counterexample. -/
def biasLayer (b : Int) : ConvLayer Int :=
  { input := ⟨1, 1, 1⟩, output := ⟨1, 1, 1⟩, kernel := ⟨1, 1⟩, nFilters := 1, stride := ⟨1, 1⟩,
    padding := ⟨0, 0⟩, weights := [2], biases := [b], weightGrads := [0], biasGrads := [0],
    inputGrads := [0], out := [0], lastInput := [3] }

/-- C12 is false: with bias 5, weight 2 and input 3 the output is 6, not 11; and after two
backward calls with gradients 1 and 10 the weight gradient is 33 but the bias gradient 10. -/
theorem C12_conv_bias_refuted :
    (biasLayer 5).forward [3] = .ok { biasLayer 5 with out := [6] } ∧
    (convBackwards (biasLayer 5) [([1], [3]), ([10], [3])])
      = .ok { biasLayer 5 with inputGrads := [20], weightGrads := [33], biasGrads := [10] } := by
  decide

/-- C12: `forward` does not depend on the biases at all. -/
theorem C12_forward_ignores_bias {α : Type} [Zero α] [Add α] [Mul α] (l : ConvLayer α)
    (b : List α) (x : List α) :
    ({ l with biases := b }.forward x) =
      (l.forward x >>= fun l' => .ok { l' with biases := b }) := by
  unfold ConvLayer.forward
  simp only []
  cases crossCorrelation l.out x l.input l.weights l.kernel l.nFilters l.stride l.padding <;> rfl

/-- C12, the part that holds: one backward call leaves in the bias gradient of each filter the
sum of the output gradients of that filter.  Missing: the forward pass does not add the bias
and successive calls overwrite instead of accumulating (both refuted above). -/
theorem C12_conv_bias_partial {α : Type} [CommSemiring α] (l l' : ConvLayer α) (g : Geom)
    (hl : ConvOk l g) (gr : List α)
    (hgr : gr.length = g.rows * g.cols * l.nFilters) (h : l.backward gr = .ok l') :
    ∀ f, f < l.nFilters → l'.biasGrads[f]? =
      some (∑ r ∈ range g.rows, ∑ c ∈ range g.cols,
        vec gr ((r * g.cols + c) * l.nFilters + f)) := by
  intro f hf
  unfold ConvLayer.backward at h
  rw [hl.output, convBiasGrads_eq (show g.rows * g.cols * l.nFilters ≤ gr.length by omega) hl.biasGrads, Exec.bind_ok] at h
  simp only [] at h
  cases hk : kernelSlide (convGradOp gr l.lastInput l.input l.weights l.kernel l.nFilters)
    l.input l.kernel l.stride l.padding
    (List.replicate l.inputGrads.length 0, l.weightGrads) with
  | ok r =>
    rw [hk] at h
    simp at h
    subst h
    simp only []
    rw [tab_getElem? _ hf]
  | throw m => rw [hk] at h; simp at h
  | ub => rw [hk] at h; simp at h

/-! ### C13, C14: pooling backward -/

/-- The layer `l` has pooling geometry `g` and buffers of the right lengths. -/
structure PoolOk {α : Type} (l : PoolLayer α) (g : Geom) : Prop where
  input : l.input = g.src
  kernel : l.kernel = ⟨g.kh, g.kw⟩
  stride : l.stride = ⟨g.sh, g.sw⟩
  inputGrads : l.inputGrads.length = g.src.h * g.src.w * g.src.c
  out : l.out.length = g.rows * g.cols * g.src.c

/-- C10: the pooling constructor returns such a layer for every geometry that fits. -/
theorem C10_pool_layer_constructed {α : Type} [Zero α] (g : Geom) (hg : g.Fits) (hp : g.Pool) :
    ∃ l : PoolLayer α, PoolLayer.mk' g.src ⟨g.kh, g.kw⟩ ⟨g.sh, g.sw⟩ = .ok l ∧ PoolOk l g := by
  unfold PoolLayer.mk' poolOutputShape
  have h1 := outputSide_eq hg.h_pos hg.sh_pos hg.kh_pos hg.kh_le hg.h_lt
  have h2 := outputSide_eq hg.w_pos hg.sw_pos hg.kw_pos hg.kw_le hg.w_lt
  rw [hp.1] at h1
  rw [hp.2] at h2
  rw [h1, Exec.bind_ok, h2, Exec.bind_ok]
  refine ⟨_, rfl, ?_⟩
  constructor <;> simp [Shape3.size, Geom.rows, Geom.cols, hp.1, hp.2]

/-- The cell in the top left corner of the window is a maximum of the window. -/
def CornerIsMax {α : Type} [LE α] (g : Geom) (x : Nat → α) (r c ch : Nat) : Prop :=
  ∀ a b, a < g.kh → b < g.kw → x (windowCell g r c a b ch) ≤ x (windowCell g r c 0 0 ch)

/-- `i` is a cell of the window that attains its maximum. -/
def WindowMaxAt {α : Type} [LE α] (g : Geom) (x : Nat → α) (r c ch i : Nat) : Prop :=
  (∃ a b, a < g.kh ∧ b < g.kw ∧ i = windowCell g r c a b ch) ∧
  ∀ a b, a < g.kh → b < g.kw → x (windowCell g r c a b ch) ≤ x i

/-- What `MaxPoolingLayer::backward` really does, for every geometry and content: the gradient
of a window whose corner is a maximum goes to cell 0 of the whole input, every other gradient
to a maximum of its window. -/
theorem C13_max_pool_backward_actual {α : Type} [CommSemiring α] [LinearOrder α]
    (l : PoolLayer α) (g : Geom) (hg : g.Fits) (hp : g.Pool) (hl : PoolOk l g) (gr : List α)
    (hgr : gr.length = g.rows * g.cols * g.src.c)
    (hx : l.lastInput.length = g.src.h * g.src.w * g.src.c) :
    ∃ (ig : List α) (tgt : Nat → Nat → Nat → Nat), maxBackward l gr = .ok { l with inputGrads := ig } ∧
      ig.length = l.inputGrads.length ∧
      (∀ r c ch, CornerIsMax g (vec l.lastInput) r c ch → tgt r c ch = 0) ∧
      (∀ r c ch, ¬ CornerIsMax g (vec l.lastInput) r c ch →
        WindowMaxAt g (vec l.lastInput) r c ch (tgt r c ch)) ∧
      (∀ q, q < ig.length → vec ig q =
        ∑ r ∈ range g.rows, ∑ c ∈ range g.cols, ∑ ch ∈ range g.src.c,
          if q = tgt r c ch then vec gr ((r * g.cols + c) * g.src.c + ch) else 0) := by
  unfold maxBackward
  rw [hl.input, hl.kernel, hl.stride, hl.inputGrads]
  have e1 : List.replicate (g.src.h * g.src.w * g.src.c) (0 : α)
      = tab (g.src.h * g.src.w * g.src.c) (0 : Nat → α) := by
    unfold tab; simp [Pi.zero_def]
  have key := maxGrad_eq hg hp (grads := gr) (src := l.lastInput)
    (N := g.src.h * g.src.w * g.src.c) (by omega) (by omega) (Nat.le_refl _) (0 : Nat → α)
  rw [← e1] at key
  have key' : kernelSlide (maxGradOp gr l.lastInput g.src ⟨g.kh, g.kw⟩)
      g.src ⟨g.kh, g.kw⟩ ⟨g.sh, g.sw⟩ ⟨0, 0⟩
      (List.replicate (g.src.h * g.src.w * g.src.c) (0 : α)) = _ := key
  rw [key', Exec.bind_ok]
  have hsplit : ∀ a b, b < g.kw → (a * g.kw + b) / g.kw = a ∧ (a * g.kw + b) % g.kw = b := by
    intro a b hb
    constructor
    · rw [Nat.mul_comm, Nat.mul_add_div (by omega), Nat.div_eq_of_lt hb, Nat.add_zero]
    · rw [Nat.mul_comm, Nat.mul_add_mod, Nat.mod_eq_of_lt hb]
  refine ⟨_, route g (vec l.lastInput), rfl, by simp, ?_, ?_, ?_⟩
  · intro r c ch hcorner
    rcases (route_spec hg hp (vec l.lastInput) r c ch).2 with ⟨_, h⟩ | ⟨i, h1, h2, _, _, h5⟩
    · exact h
    · exfalso
      have hb := ki_bounds h2
      have h6 := hcorner _ _ hb.1 hb.2
      have h7 := h5 0 h1
      simp only [cellNo, Nat.zero_div, Nat.zero_mod] at h7
      exact absurd h7 (not_lt.mpr h6)
  · intro r c ch hcorner
    rcases (route_spec hg hp (vec l.lastInput) r c ch).2 with ⟨h0, _⟩ | ⟨i, h1, h2, h3, h4, _⟩
    · exfalso
      apply hcorner
      intro a b ha hb
      have := h0 (a * g.kw + b) (rowmajor_lt ha hb)
      simpa only [cellNo, (hsplit a b hb).1, (hsplit a b hb).2, Nat.zero_div, Nat.zero_mod]
        using this
    · have hb := ki_bounds h2
      refine ⟨⟨_, _, hb.1, hb.2, h3⟩, ?_⟩
      intro a b ha hb
      have := h4 (a * g.kw + b) (rowmajor_lt ha hb)
      rw [h3]
      simpa only [cellNo, (hsplit a b hb).1, (hsplit a b hb).2] using this
  · intro q hq
    rw [vec_tab _ (by simpa using hq)]
    simp [Finset.sum_apply, at1]

/-- C13, the part that holds: if no window has a maximum in its corner, every output gradient
is added to a cell of its window that attains the maximum, and nothing else is added.
Missing: windows whose corner is a maximum (refuted below). -/
theorem C13_max_pool_backward_partial {α : Type} [CommSemiring α] [LinearOrder α]
    (l : PoolLayer α) (g : Geom) (hg : g.Fits) (hp : g.Pool) (hl : PoolOk l g) (gr : List α)
    (hgr : gr.length = g.rows * g.cols * g.src.c)
    (hx : l.lastInput.length = g.src.h * g.src.w * g.src.c)
    (hcorner : ∀ r c ch, r < g.rows → c < g.cols → ch < g.src.c →
      ¬ CornerIsMax g (vec l.lastInput) r c ch) :
    ∃ (ig : List α) (tgt : Nat → Nat → Nat → Nat), maxBackward l gr = .ok { l with inputGrads := ig } ∧
      (∀ r c ch, r < g.rows → c < g.cols → ch < g.src.c →
        WindowMaxAt g (vec l.lastInput) r c ch (tgt r c ch)) ∧
      (∀ q, q < ig.length → vec ig q =
        ∑ r ∈ range g.rows, ∑ c ∈ range g.cols, ∑ ch ∈ range g.src.c,
          if q = tgt r c ch then vec gr ((r * g.cols + c) * g.src.c + ch) else 0) := by
  obtain ⟨ig, tgt, h1, _, _, h3, h4⟩ := C13_max_pool_backward_actual l g hg hp hl gr hgr hx
  exact ⟨ig, tgt, h1, fun r c ch hr hc hch => h3 r c ch (hcorner r c ch hr hc hch), h4⟩

/-- C13 is false: windows of width 1 over `[5, 7]`; the gradients 1 and 10 both end up in
cell 0. -/
theorem C13_max_pool_backward_refuted :
    maxBackward (α := Int)
      { input := ⟨1, 2, 1⟩, output := ⟨1, 2, 1⟩, kernel := ⟨1, 1⟩, stride := ⟨1, 1⟩,
        inputGrads := [0, 0], out := [5, 7], lastInput := [5, 7] } [1, 10]
    = .ok
      { input := ⟨1, 2, 1⟩, output := ⟨1, 2, 1⟩, kernel := ⟨1, 1⟩, stride := ⟨1, 1⟩,
        inputGrads := [11, 0], out := [5, 7], lastInput := [5, 7] } := by decide

/-- Non-vacuity of the partial theorem: two windows of width 2 whose maxima are on the right. -/
example : maxBackward (α := Int)
      { input := ⟨1, 4, 1⟩, output := ⟨1, 2, 1⟩, kernel := ⟨1, 2⟩, stride := ⟨1, 2⟩,
        inputGrads := [0, 0, 0, 0], out := [7, 9], lastInput := [5, 7, 8, 9] } [1, 10]
    = .ok
      { input := ⟨1, 4, 1⟩, output := ⟨1, 2, 1⟩, kernel := ⟨1, 2⟩, stride := ⟨1, 2⟩,
        inputGrads := [0, 1, 0, 10], out := [7, 9], lastInput := [5, 7, 8, 9] } := by decide

/-- C14, the part that holds: every window cell except the corner of the window receives
`g / (kh * kw)`.  Missing: the corner receives nothing (refuted below). -/
theorem C14_avg_pool_backward_partial {α : Type} [Field α]
    (l : PoolLayer α) (g : Geom) (hg : g.Fits) (hp : g.Pool) (hl : PoolOk l g) (gr : List α)
    (hgr : gr.length = g.rows * g.cols * g.src.c) :
    ∃ ig : List α, avgBackward l gr = .ok { l with inputGrads := ig } ∧
      ig.length = l.inputGrads.length ∧
      (∀ q, q < ig.length → vec ig q =
        ∑ r ∈ range g.rows, ∑ c ∈ range g.cols, ∑ ch ∈ range g.src.c,
          ∑ a ∈ range g.kh, ∑ b ∈ range g.kw,
            if q = windowCell g r c a b ch ∧ ¬ (a = 0 ∧ b = 0) then
              vec gr ((r * g.cols + c) * g.src.c + ch) / ((g.kh * g.kw : Nat) : α)
            else 0) := by
  unfold avgBackward
  rw [hl.input, hl.kernel, hl.stride, hl.inputGrads]
  have e1 : List.replicate (g.src.h * g.src.w * g.src.c) (0 : α)
      = tab (g.src.h * g.src.w * g.src.c) (0 : Nat → α) := by
    unfold tab; simp [Pi.zero_def]
  have key := avgGrad_eq hg hp (grads := gr)
    (N := g.src.h * g.src.w * g.src.c) (by omega) (Nat.le_refl _) (0 : Nat → α)
  rw [← e1] at key
  have key' : kernelSlide (avgGradOp gr g.src ⟨g.kh, g.kw⟩)
      g.src ⟨g.kh, g.kw⟩ ⟨g.sh, g.sw⟩ ⟨0, 0⟩
      (List.replicate (g.src.h * g.src.w * g.src.c) (0 : α)) = _ := key
  rw [key', Exec.bind_ok]
  refine ⟨_, rfl, by simp, ?_⟩
  intro q hq
  rw [vec_tab _ (by simpa using hq)]
  simp only [Pi.add_apply, Pi.zero_apply, Finset.sum_apply, zero_add]
  refine sum_congr rfl fun r _ => sum_congr rfl fun c _ => sum_congr rfl fun ch _ =>
    sum_congr rfl fun a _ => sum_congr rfl fun b _ => ?_
  by_cases h : a = 0 ∧ b = 0
  · simp [h]
  · by_cases h2 : q = windowCell g r c a b ch
    · simp [h, h2, at1]
    · simp [h, h2, at1]

/-- C14 is false: with a 1x1 window nothing is propagated; with a 1x2 window half of the
gradient is lost (integers, so that 10 / 2 = 5 exactly). -/
theorem C14_avg_pool_backward_refuted :
    (∃ o, avgBackward (α := Int)
      { input := ⟨1, 1, 1⟩, output := ⟨1, 1, 1⟩, kernel := ⟨1, 1⟩, stride := ⟨1, 1⟩,
        inputGrads := [0], out := [5], lastInput := [5] } [10] = .ok o ∧ o.inputGrads = [0]) ∧
    (∃ o, avgBackward (α := Int)
      { input := ⟨1, 2, 1⟩, output := ⟨1, 1, 1⟩, kernel := ⟨1, 2⟩, stride := ⟨1, 1⟩,
        inputGrads := [0, 0], out := [5], lastInput := [5, 5] } [10] = .ok o
      ∧ o.inputGrads = [0, 5]) :=
  ⟨⟨_, rfl, by decide⟩, ⟨_, rfl, by decide⟩⟩

/-- C14: in exact arithmetic the sum of the input gradients is `(k-1)/k` of the sum of the
output gradients, `k` the number of cells of a window: never the whole. -/
theorem C14_avg_pool_backward_sum {α : Type} [Field α] [CharZero α]
    (l : PoolLayer α) (g : Geom) (hg : g.Fits) (hp : g.Pool) (hl : PoolOk l g) (gr : List α)
    (hgr : gr.length = g.rows * g.cols * g.src.c) :
    ∃ ig : List α, avgBackward l gr = .ok { l with inputGrads := ig } ∧
      ∑ q ∈ range ig.length, vec ig q =
        ((g.kh * g.kw : Nat) - 1 : α) / ((g.kh * g.kw : Nat) : α) *
          ∑ r ∈ range g.rows, ∑ c ∈ range g.cols, ∑ ch ∈ range g.src.c,
            vec gr ((r * g.cols + c) * g.src.c + ch) := by
  obtain ⟨ig, h1, h2, h3⟩ := C14_avg_pool_backward_partial l g hg hp hl gr hgr
  refine ⟨ig, h1, ?_⟩
  rw [sum_congr rfl (fun q hq => h3 q (by simpa using hq))]
  rw [sum_comm, mul_sum]
  refine sum_congr rfl fun r hr => ?_
  rw [sum_comm, mul_sum]
  refine sum_congr rfl fun c hc => ?_
  rw [sum_comm, mul_sum]
  refine sum_congr rfl fun ch hch => ?_
  have hr' : r < g.rows := by simpa using hr
  have hc' : c < g.cols := by simpa using hc
  have hch' : ch < g.src.c := by simpa using hch
  generalize vec gr ((r * g.cols + c) * g.src.c + ch) = v
  rw [sum_comm]
  have step : ∀ a ∈ range g.kh, ∑ q ∈ range ig.length, ∑ b ∈ range g.kw,
      (if q = windowCell g r c a b ch ∧ ¬ (a = 0 ∧ b = 0) then v / ((g.kh * g.kw : Nat) : α) else 0)
      = ∑ b ∈ range g.kw, if a = 0 ∧ b = 0 then 0 else v / ((g.kh * g.kw : Nat) : α) := by
    intro a ha
    rw [sum_comm]
    refine sum_congr rfl fun b hb => ?_
    have hlt : windowCell g r c a b ch < ig.length := by
      rw [h2, hl.inputGrads]
      exact cell_lt hg hp hr' hc' (by simpa using ha) (by simpa using hb) hch'
    by_cases h : a = 0 ∧ b = 0
    · simp [h]
    · simp only [h, not_false_eq_true, and_true, if_false]
      rw [sum_ite_eq' (range ig.length) (windowCell g r c a b ch)
        (fun _ => v / ((g.kh * g.kw : Nat) : α))]
      simp [hlt]
  rw [sum_congr rfl step]
  have hkh := hg.kh_pos
  have hkw := hg.kw_pos
  have total : ∑ a ∈ range g.kh, ∑ b ∈ range g.kw,
      (if a = 0 ∧ b = 0 then (0 : α) else v / ((g.kh * g.kw : Nat) : α))
      = ∑ i ∈ range (g.kh * g.kw - 1), v / ((g.kh * g.kw : Nat) : α) := by
    rw [sum_skip_zero (n := g.kh * g.kw) (fun _ => v / ((g.kh * g.kw : Nat) : α)),
      ← sum_range_mul g.kh g.kw (fun a b => if a = 0 ∧ b = 0 then (0 : α)
        else v / ((g.kh * g.kw : Nat) : α))]
    refine sum_congr rfl fun ki hki => ?_
    have hiff : (ki / g.kw = 0 ∧ ki % g.kw = 0) ↔ ki = 0 := by
      constructor
      · rintro ⟨h1, h2⟩
        have := Nat.div_add_mod' ki g.kw
        rw [h1, h2] at this; omega
      · rintro rfl; simp
    simp only [hiff]
  rw [total, sum_const, card_range, nsmul_eq_mul,
    Nat.cast_sub (Nat.mul_pos hkh hkw)]
  push_cast
  ring

end Verif.Props

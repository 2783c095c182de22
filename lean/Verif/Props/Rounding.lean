import Verif.Proofs.SlideOrd
import Verif.Props.Dense
import Verif.Props.Slide
import Verif.Model.Optimizer

/-
C82: computations in floating point stay within known distances of the exact results.

`A` is any floating-point format; `Verif.Float.double` is the one the library uses.  A buffer of finite
numbers is written `fins A x` for a list `x` of real numbers.
-/

namespace Verif.Props
open Spec Verif.Float Finset Dense Slide

/-- C82: a dense layer.  The result is finite and within the error bound of the exact output, provided the
magnitudes leave room below the overflow threshold. -/
theorem C82_dense_forward (A : Arith) (dst : List (Fl A)) (x w b : List ℝ) (n m : Nat)
    (hd : m ≤ dst.length) (hx : n ≤ x.length) (hw : m * n ≤ w.length) (hb : m ≤ b.length)
    (hbig : ∀ i, i < m → denseMag w b x n i + sumErr A n (denseMag w b x n i) < A.big) :
    ∃ d, dense dst (fins A x) (fins A w) (fins A b) n m = .ok d ∧ d.length = dst.length ∧
      (∀ i, i < m → ∃ s, d[i]? = some (.fin s) ∧
        |s - denseOut w b x n i| ≤ sumErr A n (denseMag w b x n i)) ∧
      (∀ i, m ≤ i → d[i]? = dst[i]?) := by
  obtain ⟨d, h1, h2, h3, h4⟩ := C04_dense_forward dst (fins A x) (fins A w) (fins A b) n m hd
    (by simpa [fins] using hx) (by simpa [fins] using hw) (by simpa [fins] using hb)
  refine ⟨d, h1, h2, ?_, h4⟩
  intro i hi
  obtain ⟨s, e, hs⟩ := fl_dot (A := A) (n := n) (b := vec b i) (x := fun j => mat w n i j)
    (y := fun j => vec x j) (hbig i hi)
  refine ⟨s, ?_, hs⟩
  rw [h3 i hi, ← e]
  congr 1
  simp only [vec_fins, mat_fins]

/-- C82: the `forward` of a dense layer object. -/
theorem C82_layer_forward (A : Arith) (l : Dense.Layer (Fl A)) (x w b : List ℝ)
    (hx : x.length = l.inputSize) (ho : l.output.length = l.outputSize)
    (hw : l.weights = fins A w) (hb : l.biases = fins A b)
    (hwl : w.length = l.outputSize * l.inputSize) (hbl : b.length = l.outputSize)
    (hbig : ∀ i, i < l.outputSize →
      denseMag w b x l.inputSize i + sumErr A l.inputSize (denseMag w b x l.inputSize i) < A.big) :
    ∃ y : List ℝ, l.forward (fins A x) = .ok { l with output := fins A y } ∧ y.length = l.outputSize ∧
      ∀ i, i < l.outputSize →
        |vec y i - denseOut w b x l.inputSize i| ≤ sumErr A l.inputSize (denseMag w b x l.inputSize i) := by
  obtain ⟨d, h1, h2, h3, _⟩ := C82_dense_forward A l.output x w b l.inputSize l.outputSize
    (by omega) (by omega) (by omega) (by omega) hbig
  choose! y hy using h3
  refine ⟨tab l.outputSize y, ?_, by simp [tab], ?_⟩
  · unfold Dense.Layer.forward
    have hlen : (fins A x).length = l.inputSize := by simpa [fins] using hx
    rw [hlen, ho, hw, hb, h1, Exec.bind_ok]
    have : d = fins A (tab l.outputSize y) := by
      apply List.ext_getElem?
      intro i
      by_cases hi : i < l.outputSize
      · rw [(hy i hi).1]
        simp [fins, tab, hi]
      · rw [List.getElem?_eq_none (by omega), List.getElem?_eq_none (by simp [fins, tab]; omega)]
    rw [this]
    rfl
  · intro i hi
    have : vec (tab l.outputSize y) i = y i := by simp [vec, tab, hi]
    rw [this]
    exact (hy i hi).2

/-- C82: the backward pass of a dense layer.  Bias and weight gradients are one, respectively two, rounded
operations away from the exact ones, the input gradients are within the error bound of a sum. -/
theorem C82_dense_backward (A : Arith) (s : Grads (Fl A)) (bg wg g x w : List ℝ) (n m : Nat)
    (hig : s.input.length = n) (hwg : s.weight = fins A wg) (hbg : s.bias = fins A bg)
    (hwl : wg.length = m * n) (hbl : bg.length = m) (hg : m ≤ g.length) (hx : n ≤ x.length)
    (hw : m * n ≤ w.length)
    (hb1 : ∀ i, i < m → |vec bg i + vec g i| + opErr A (vec bg i + vec g i) < A.big)
    (hb2 : ∀ i j, i < m → j < n → |mat wg n i j| + |vec g i * vec x j|
      + sumErr A 1 (|mat wg n i j| + |vec g i * vec x j|) < A.big)
    (hb3 : ∀ j, j < n → ∑ i ∈ range m, |vec g i * mat w n i j|
      + sumErr A m (∑ i ∈ range m, |vec g i * mat w n i j|) < A.big) :
    ∃ r, dense1 s (fins A g) (fins A x) (fins A w) n m = .ok r ∧
      (∀ i, i < m → ∃ t, r.bias[i]? = some (.fin t) ∧
        |t - (vec bg i + vec g i)| ≤ opErr A (vec bg i + vec g i)) ∧
      (∀ i j, i < m → j < n → ∃ t, r.weight[i * n + j]? = some (.fin t) ∧
        |t - (mat wg n i j + vec g i * vec x j)| ≤ sumErr A 1 (|mat wg n i j| + |vec g i * vec x j|)) ∧
      (∀ j, j < n → ∃ t, r.input[j]? = some (.fin t) ∧
        |t - ∑ i ∈ range m, vec g i * mat w n i j| ≤
          sumErr A m (∑ i ∈ range m, |vec g i * mat w n i j|)) := by
  obtain ⟨r, h1, l1, l2, l3, h2, h3, h4⟩ := C05_dense_backward s (fins A g) (fins A x) (fins A w) n m hig
    (by simpa [hwg, fins] using hwl) (by simpa [hbg, fins] using hbl)
    (by simpa [fins] using hg) (by simpa [fins] using hx) (by simpa [fins] using hw)
  refine ⟨r, h1, ?_, ?_, ?_⟩
  · intro i hi
    obtain ⟨t, e, ht⟩ := round_ok (hb1 i hi)
    refine ⟨t, ?_, ht⟩
    rw [getElem?_vec (by omega), h2 i hi, hbg, vec_fins, vec_fins, fl_add, e]
  · intro i j hi hj
    have hlt : i * n + j < m * n := by
      calc i * n + j < i * n + n := by omega
        _ = (i + 1) * n := by ring
        _ ≤ m * n := Nat.mul_le_mul_right n hi
    obtain ⟨t, e, ht⟩ := fl_dot (A := A) (n := 1) (b := mat wg n i j) (x := fun _ => vec g i)
      (y := fun _ => vec x j) (by simpa using hb2 i j hi hj)
    simp only [range_one, sum_singleton] at ht
    refine ⟨t, ?_, ht⟩
    rw [getElem?_vec (by omega), ← mat_eq_vec, h3 i j hi hj, hwg, mat_fins, vec_fins, vec_fins, ← e]
    rfl
  · intro j hj
    obtain ⟨t, e, ht⟩ := fl_dot (A := A) (n := m) (b := 0) (x := fun i => vec g i)
      (y := fun i => mat w n i j) (by simpa using hb3 j hj)
    simp only [abs_zero, zero_add] at ht
    refine ⟨t, ?_, ht⟩
    rw [getElem?_vec (by omega), h4 j hj, ← e]
    congr 1
    simp only [vec_fins, mat_fins]
    rfl

/-- C82: a convolution. -/
theorem C82_convolution (A : Arith) (g : Geom) (hg : g.Fits) (nf : Nat) (dst : List (Fl A))
    (x k : List ℝ) (hdst : g.rows * g.cols * nf ≤ dst.length)
    (hx : g.src.h * g.src.w * g.src.c ≤ x.length) (hk : g.kh * g.kw * g.src.c * nf ≤ k.length)
    (hbig : ∀ r c f, r < g.rows → c < g.cols → f < nf →
      corrMag g nf (vec x) (vec k) r c f
        + sumErr A (g.kh * g.kw * g.src.c) (corrMag g nf (vec x) (vec k) r c f) < A.big) :
    ∃ d, crossCorrelation dst (fins A x) g.src (fins A k) ⟨g.kh, g.kw⟩ nf ⟨g.sh, g.sw⟩ ⟨g.ph, g.pw⟩
        = .ok d ∧ d.length = dst.length ∧
      (∀ r c f, r < g.rows → c < g.cols → f < nf → ∃ s,
        d[(r * g.cols + c) * nf + f]? = some (.fin s) ∧
        |s - corr g nf (vec x) (vec k) r c f| ≤
          sumErr A (g.kh * g.kw * g.src.c) (corrMag g nf (vec x) (vec k) r c f)) := by
  obtain ⟨d, h1, h2, h3, _⟩ := crossCorrelation_ord hg (nf := nf) (dst := dst) (src := fins A x)
    (k := fins A k) hdst (by simpa [fins] using hx) (by simpa [fins] using hk)
  refine ⟨d, h1, h2, ?_⟩
  intro r c f hr hc hf
  rw [h3 r c f hr hc hf]
  set q : Nat → ℝ := fun ki => under g (vec x) r c ki * vec k (ki * nf + f) with hq
  have hsum : ∑ ki ∈ range (g.kh * g.kw * g.src.c), q ki = corr g nf (vec x) (vec k) r c f := by
    have := sum_ki g (fun a b ch => padded (vec x) g.src (rowOf g r a) (colOf g c b) ch
      * vec k (((a * g.kw + b) * g.src.c + ch) * nf + f))
    refine Eq.trans (sum_congr rfl ?_) this
    intro ki hki
    obtain ⟨_, _, _, _, _, e⟩ := ki_split g (mem_range.mp hki)
    simp only [hq, under]
    rw [← e]
  have hmag : ∑ ki ∈ range (g.kh * g.kw * g.src.c), |q ki| = corrMag g nf (vec x) (vec k) r c f := by
    have := sum_ki g (fun a b ch => |padded (vec x) g.src (rowOf g r a) (colOf g c b) ch
      * vec k (((a * g.kw + b) * g.src.c + ch) * nf + f)|)
    refine Eq.trans (sum_congr rfl ?_) this
    intro ki hki
    obtain ⟨_, _, _, _, _, e⟩ := ki_split g (mem_range.mp hki)
    simp only [hq, under]
    rw [← e]
  have hb : |(0 : ℝ)| + ∑ ki ∈ range (g.kh * g.kw * g.src.c), |q ki|
      + sumErr A (g.kh * g.kw * g.src.c) (|(0 : ℝ)| + ∑ ki ∈ range (g.kh * g.kw * g.src.c), |q ki|) < A.big := by
    rw [abs_zero, zero_add, hmag]
    exact hbig r c f hr hc hf
  have hpad : ∀ ki, under g (vec (fins A x)) r c ki = (.fin (under g (vec x) r c ki) : Fl A) := by
    intro ki
    unfold under padded
    split
    · exact vec_fins _ _
    · rfl
  obtain ⟨s, e, hs⟩ := fl_sum (A := A) (P := Inside g r c) (b := 0)
    (t := fun ki => under g (vec (fins A x)) r c ki * vec (fins A k) (ki * nf + f)) (q := q)
    (by
      intro ki hki _
      rw [hpad, vec_fins]
      exact fl_prod hki rfl hb)
    (by
      intro ki _ hin
      simp only [hq, under, padded]
      unfold Inside at hin
      rw [if_neg hin, zero_mul])
    hb
  rw [abs_zero, zero_add, zero_add, hsum, hmag] at hs
  exact ⟨s, by rw [← e]; rfl, hs⟩

/-- C82: max pooling is exact: it returns, bit for bit, what exact arithmetic returns. -/
theorem C82_max_pool (A : Arith) (g : Geom) (hg : g.Fits) (hp : g.Pool) (dst : List (Fl A))
    (x : List ℝ) (hdst : g.rows * g.cols * g.src.c ≤ dst.length)
    (hx : g.src.h * g.src.w * g.src.c ≤ x.length) :
    ∃ d, maxPool dst (fins A x) g.src ⟨g.kh, g.kw⟩ ⟨g.sh, g.sw⟩ = .ok d ∧ d.length = dst.length ∧
      (∀ r c ch, r < g.rows → c < g.cols → ch < g.src.c → ∃ M,
        d[(r * g.cols + c) * g.src.c + ch]? = some (.fin M) ∧
        (∃ a b, a < g.kh ∧ b < g.kw ∧ x[windowCell g r c a b ch]? = some M) ∧
        (∀ a b, a < g.kh → b < g.kw → ∃ v, x[windowCell g r c a b ch]? = some v ∧ v ≤ M)) := by
  obtain ⟨d, h1, h2, h3, _⟩ := maxPool_spec (α := Fl A) hg hp (dst := dst) (src := fins A x) hdst
    (by simpa [fins] using hx)
  obtain ⟨d', h1', h2', h3', _⟩ := C10_max_pool g hg hp (List.replicate (g.rows * g.cols * g.src.c) (0 : ℝ)) x
    (by simp) hx
  obtain ⟨d'', h1'', _, h3'', _⟩ := maxPool_spec (α := ℝ) hg hp
    (dst := List.replicate (g.rows * g.cols * g.src.c) (0 : ℝ)) (src := x) (by simp) hx
  refine ⟨d, h1, h2, ?_⟩
  intro r c ch hr hc hch
  obtain ⟨M, e, hM⟩ := h3' r c ch hr hc hch
  refine ⟨M, ?_, hM⟩
  have hrun : ∀ (v : Nat → ℝ) n, runMax (fun i => (.fin (v i) : Fl A)) n = .fin (runMax v n) := by
    intro v n
    induction n with
    | zero => rfl
    | succ n ih =>
      cases n with
      | zero => rfl
      | succ n =>
        unfold runMax
        rw [ih]
        by_cases h : runMax v (n + 1) < v (n + 1)
        · rw [if_pos ((fl_lt _ _).mpr h), if_pos h]
        · rw [if_neg (fun h' => h ((fl_lt _ _).mp h')), if_neg h]
  rw [h3 r c ch hr hc hch]
  have e2 := h3'' r c ch hr hc hch
  have hdd : d'' = d' := by
    have : (Exec.ok d'' : Exec (List ℝ)) = .ok d' := by rw [← h1'', ← h1']; rfl
    injection this
  rw [hdd, e] at e2
  injection e2 with e2
  simp only [vec_fins]
  rw [hrun, ← e2]

/-- C82: average pooling, for windows whose size is a number of the format. -/
theorem C82_avg_pool (A : Arith) (g : Geom) (hg : g.Fits) (hp : g.Pool) (dst : List (Fl A))
    (x : List ℝ) (hdst : g.rows * g.cols * g.src.c ≤ dst.length)
    (hx : g.src.h * g.src.w * g.src.c ≤ x.length)
    (hn : A.rnd (g.kh * g.kw : Nat) = (g.kh * g.kw : Nat)) (hn' : ((g.kh * g.kw : Nat) : ℝ) < A.big)
    (hbig : ∀ r c ch, r < g.rows → c < g.cols → ch < g.src.c →
      2 * (∑ a ∈ range g.kh, ∑ b ∈ range g.kw, |vec x (windowCell g r c a b ch)|
        + sumErr A (g.kh * g.kw) (∑ a ∈ range g.kh, ∑ b ∈ range g.kw, |vec x (windowCell g r c a b ch)|))
        + A.e < A.big) (hu : A.u ≤ 1) :
    ∃ d, avgPool dst (fins A x) g.src ⟨g.kh, g.kw⟩ ⟨g.sh, g.sw⟩ = .ok d ∧ d.length = dst.length ∧
      (∀ r c ch, r < g.rows → c < g.cols → ch < g.src.c → ∃ s,
        d[(r * g.cols + c) * g.src.c + ch]? = some (.fin s) ∧
        |s - (∑ a ∈ range g.kh, ∑ b ∈ range g.kw, vec x (windowCell g r c a b ch)) / (g.kh * g.kw : Nat)|
          ≤ avgErr A (g.kh * g.kw)
              (∑ a ∈ range g.kh, ∑ b ∈ range g.kw, |vec x (windowCell g r c a b ch)|)) := by
  obtain ⟨d, h1, h2, h3, _⟩ := avgPool_ord hg hp (dst := dst) (src := fins A x) hdst
    (by simpa [fins] using hx)
  refine ⟨d, h1, h2, ?_⟩
  intro r c ch hr hc hch
  rw [h3 r c ch hr hc hch]
  have hK : 0 < g.kh * g.kw := Nat.mul_pos hg.kh_pos hg.kw_pos
  have hsum : ∑ ki ∈ range (g.kh * g.kw), vec x (cellNo g r c ch ki)
      = ∑ a ∈ range g.kh, ∑ b ∈ range g.kw, vec x (windowCell g r c a b ch) :=
    sum_range_mul g.kh g.kw (fun a b => vec x (windowCell g r c a b ch))
  have hmag : ∑ ki ∈ range (g.kh * g.kw), |vec x (cellNo g r c ch ki)|
      = ∑ a ∈ range g.kh, ∑ b ∈ range g.kw, |vec x (windowCell g r c a b ch)| :=
    sum_range_mul g.kh g.kw (fun a b => |vec x (windowCell g r c a b ch)|)
  have hb := hbig r c ch hr hc hch
  rw [← hmag] at hb ⊢
  rw [← hsum]
  generalize hMM : ∑ ki ∈ range (g.kh * g.kw), |vec x (cellNo g r c ch ki)| = M at *
  have hM0 : 0 ≤ M := by rw [← hMM]; exact sum_nonneg fun _ _ => abs_nonneg _
  have hE0 := sumErr_nonneg (A := A) (g.kh * g.kw) hM0
  have he := A.e_nonneg
  have hu0 := A.u_nonneg
  obtain ⟨s, e, hs⟩ := fl_sum (A := A) (P := fun _ => True) (b := 0) (n := g.kh * g.kw)
    (t := fun ki => .fin (vec x (cellNo g r c ch ki))) (q := fun ki => vec x (cellNo g r c ch ki))
    (fun ki _ _ => ⟨_, rfl, by
      rw [sub_self, abs_zero]; unfold opErr; have := abs_nonneg (vec x (cellNo g r c ch ki)); positivity⟩)
    (fun _ _ h => absurd trivial h)
    (by rw [abs_zero, zero_add, hMM]; linarith)
  rw [abs_zero, zero_add, zero_add, hMM] at hs
  rw [ordSumIf_true] at e
  have hN : (1 : ℝ) ≤ (g.kh * g.kw : Nat) := by exact_mod_cast hK
  have hNne : ((g.kh * g.kw : Nat) : ℝ) ≠ 0 := by linarith
  have hcast : (((g.kh * g.kw : Nat) : Nat) : Fl A) = .fin (g.kh * g.kw : Nat) := by
    rw [fl_nat]
    unfold Fl.round
    rw [hn, if_pos]
    rwa [abs_of_nonneg (by linarith)]
  have hS : |∑ ki ∈ range (g.kh * g.kw), vec x (cellNo g r c ch ki)| ≤ M := by
    rw [← hMM]; exact abs_sum_le_sum_abs _ _
  generalize ∑ ki ∈ range (g.kh * g.kw), vec x (cellNo g r c ch ki) = S at *
  generalize hNN : ((g.kh * g.kw : Nat) : ℝ) = N at *
  have hs' : |s| ≤ M + sumErr A (g.kh * g.kw) M := by
    have := abs_add_le (s - S) S
    rw [sub_add_cancel] at this
    linarith
  have hdiv : |s / N| ≤ |s| := by
    rw [abs_div, abs_of_pos (show (0:ℝ) < N by linarith)]
    exact div_le_self (abs_nonneg s) hN
  obtain ⟨t, et, ht⟩ := round_ok (A := A) (x := s / N) (by
    unfold opErr
    have : A.u * |s / N| ≤ 1 * |s / N| := mul_le_mul_of_nonneg_right hu (abs_nonneg _)
    linarith)
  refine ⟨t, ?_, ?_⟩
  · simp only [vec_fins]
    rw [fl_zero, e, hcast, fl_div _ _ hNne, et]
  · have a1 : |t - S / N| ≤ |t - s / N| + |s / N - S / N| := by
      have := abs_add_le (t - s / N) (s / N - S / N)
      rwa [show t - s / N + (s / N - S / N) = t - S / N by ring] at this
    have hNpos : 0 < N := by linarith
    have a2 : |s / N - S / N| ≤ sumErr A (g.kh * g.kw) M / N := by
      rw [← sub_div, abs_div, abs_of_pos hNpos]
      exact div_le_div_of_nonneg_right hs hNpos.le
    have a3 : |s / N| ≤ (M + sumErr A (g.kh * g.kw) M) / N := by
      rw [abs_div, abs_of_pos hNpos]
      exact div_le_div_of_nonneg_right hs' hNpos.le
    have a4 : A.u * |s / N| ≤ A.u * ((M + sumErr A (g.kh * g.kw) M) / N) :=
      mul_le_mul_of_nonneg_left a3 hu0
    unfold opErr at ht
    refine (a1.trans (add_le_add ht a2)).trans ?_
    refine (add_le_add (add_le_add a4 le_rfl) le_rfl).trans (le_of_eq ?_)
    unfold avgErr sumErr
    rw [hNN]
    rw [pow_succ (1 + A.u) (g.kh * g.kw + 1), pow_succ (1 + A.u) (g.kh * g.kw)]
    generalize (1 + A.u) ^ (g.kh * g.kw) = p
    field_simp
    ring

/-- C82: one step of gradient descent. -/
theorem C82_gradient_step (A : Arith) (eta p g : ℝ)
    (hbig : |p| + |eta * g| + sumErr A 1 (|p| + |eta * g|) < A.big) :
    ∃ t, (Opt.gdStep (.fin eta : Fl A) () (.fin p) (.fin g)).2 = .fin t ∧
      |t - (p - eta * g)| ≤ sumErr A 1 (|p| + |eta * g|) := by
  obtain ⟨q, eq, hq⟩ := fl_prod (A := A) (n := 1) (q := fun _ => eta * g) (b := p) (j := 0) (by omega) rfl
    (by simpa using hbig)
  have st := sumErr_step (A := A) (k := 0) (M := |p|) (q := -(eta * g)) (s := p) (S := p) (p := -q) le_rfl
    (by rw [sub_self, abs_zero]; exact sumErr_nonneg 0 (abs_nonneg p))
    (by
      rw [show -q - -(eta * g) = -(q - eta * g) by ring, abs_neg]
      unfold opErr at *
      rw [abs_neg]
      exact hq)
  rw [abs_neg, zero_add] at st
  rw [← sub_eq_add_neg, ← sub_eq_add_neg] at st
  refine ⟨A.rnd (p - q), ?_, st⟩
  show (.fin p : Fl A) - .fin eta * .fin g = _
  rw [eq, fl_sub]
  unfold Fl.round
  rw [if_pos]
  have a1 : |A.rnd (p - q)| ≤ |A.rnd (p - q) - (p - eta * g)| + |p - eta * g| := by
    have := abs_add_le (A.rnd (p - q) - (p - eta * g)) (p - eta * g)
    rwa [sub_add_cancel] at this
  have a2 : |p - eta * g| ≤ |p| + |eta * g| := abs_sub _ _
  linarith

/-- C82: the format of the library.  Rounding goes to the nearest number of the format, with the relative
error `2^-53` and the absolute error `2^-1075`; numbers with at most 53 significant bits whose last place is
not below `2^-1074` are kept. -/
theorem C82_double : double.u = 2 ^ (-53 : ℤ) ∧ double.e = 2 ^ (-1075 : ℤ) ∧ double.big = 2 ^ (1024 : ℤ) ∧
    (∀ m k : ℤ, |m| ≤ 2 ^ 53 → -1074 ≤ k → double.rnd (m * 2 ^ k) = m * 2 ^ k) ∧
    (∀ x : ℝ, ∃ m k : ℤ, |m| ≤ 2 ^ 53 ∧ -1074 ≤ k ∧ double.rnd x = m * 2 ^ k ∧
      ∀ m' k' : ℤ, |m'| ≤ 2 ^ 53 → -1074 ≤ k' → |double.rnd x - x| ≤ |m' * 2 ^ k' - x|) := by
  refine ⟨rfl, rfl, rfl, fun m k hm hk => round_exact (B := binary64) hm hk, ?_⟩
  intro x
  obtain ⟨m, k, hm, hk, e⟩ := round_format (B := binary64) x
  exact ⟨m, k, hm, hk, e, fun m' k' hm' hk' =>
    round_best (B := binary64) x (round_exact (B := binary64) hm' hk')⟩

end Verif.Props

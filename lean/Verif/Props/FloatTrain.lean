import Verif.Proofs.NearFit
import Verif.Props.Backprop
import Verif.Props.RoundingNet

/-
C88: training in floating point follows training in exact arithmetic.
-/

namespace Verif.Props
open Spec Verif.Float Filter Verif.Net Verif.Graph

noncomputable section

theorem near_invBatch {ι : Type} {F : Filter ι} {A : ι → Arith} {L : ∀ i, Lib (A i)} (hF : Fine F A L) (B : Nat) :
    Near F (fun i => invBatchF (A i) B) (1 / ((Nat.max B 1 : Nat) : ℝ)) := by
  refine near_div hF near_one (near_nat hF _) ?_
  have : 0 < Nat.max B 1 := lt_of_lt_of_le Nat.one_pos (Nat.le_max_right _ _)
  exact_mod_cast this.ne'

theorem fits_params (ls : List AnyLayer) : FitsTheta ls (ls.map AnyLayer.params) := by
  unfold FitsTheta
  rw [List.map_map]
  rfl

/-- Training on floating-point numbers ends close to where gradient descent ends. -/
theorem float_fit {ls : List AnyLayer} {f : LossFn} {n m : Nat} (ht : Trainable n m ls) (hp : ∀ l ∈ ls, Plain l)
    (hc : Clean ls) (B : Nat) (eta : ℝ) (bs : List (List (List ℝ × List ℝ))) {θ' : Theta}
    (hs : ∀ pre θ1, pre <+: bs → Descent ls eta
        (pre.map fun b θ => cost f m (1 / ((Nat.max B 1 : Nat) : ℝ)) b (withTheta ls θ))
        (ls.map AnyLayer.params) θ1 →
      ∀ b ∈ bs, ∀ s ∈ b, FitSample (withTheta ls θ1) f n m s.1 s.2 ∧ SmoothAll (withTheta ls θ1) s.1)
    (hd : Descent ls eta (bs.map fun b θ => cost f m (1 / ((Nat.max B 1 : Nat) : ℝ)) b (withTheta ls θ))
      (ls.map AnyLayer.params) θ') :
    ∀ ε > 0, ∃ δ > 0, ∀ (A : Arith) (L : Lib A), Precise A L δ →
      ∃ ks, fitF L f (invBatchF A B) (.fin eta) bs (floats A ls) = .ok ks ∧ CloseTo ε ks θ' := by
  intro ε hε
  have hz : ZeroGrad (ls.map AnyLayer.params) (ls.map AnyLayer.paramGrads) := by
    intro j b k hb hk
    by_cases hj : j < ls.length
    · have e1 : (ls.map AnyLayer.params).getD j [] = ls[j].params := by simp [hj]
      have e2 : (ls.map AnyLayer.paramGrads).getD j [] = ls[j].paramGrads := by simp [hj]
      rw [e1] at hb hk
      rw [e2]
      exact hc.zero _ (List.getElem_mem hj) b k hb hk
    · simp [List.getElem?_eq_none (by simpa using hj : ls.length ≤ j)] at hb
  obtain ⟨X, θ1, γ1, a1, a2, _, a4⟩ := fit_near fine_isFine (near_invBatch fine_isFine B)
    (near_const (F := fine) (A := Format.A) eta) bs (fits_params ls) hz (near_floats ls ht hp) hs
  have e := descent_unique hp a4 hd
  subst e
  obtain ⟨δ, hδ, hP⟩ := eventually_fine (a1.and (near_close a2 hε))
  refine ⟨δ, hδ, fun A L hL => ?_⟩
  obtain ⟨k1, k2⟩ := hP ⟨A, L⟩ hL
  exact ⟨_, k1, k2⟩

theorem prefix_of_map {α β : Type} {g : α → β} {pre : List β} {bs : List α} (h : pre <+: bs.map g) :
    ∃ pre', pre' <+: bs ∧ pre = pre'.map g :=
  ⟨bs.take pre.length, List.take_prefix _ _, by
    rw [List.map_take]
    exact List.prefix_iff_eq_take.mp h⟩

/-- **C88**: models on a path of dense and activation layers whose gradient buffers are clear.  `fit` with
`GradientDescentOptimizer(eta)`, done in exact arithmetic, ends with the model `n'`; for every tolerance there is
a precision such that the same training on floating-point numbers of at least that precision succeeds, produces
neither infinities nor NaNs, and leaves every weight and bias within the tolerance of its value in `n'`.  Along
the exact run layers and loss have to be differentiable at the samples (a rectifier does not get an input 0). -/
theorem C88_fit (ops : List Op) (n0 : Net) (hg : n0.graph = (built ops).graph)
    (hlen : n0.layers.length = n0.graph.layers.length)
    (p : List Nat) (q : Nat) (hp : IsTrainingPath n0.graph p q) (h2 : 2 ≤ p.length)
    (ls : List AnyLayer) (f : LossFn) (nin m B : Nat)
    (hr : Ready n0 p q ls f nin m (1 / ((Nat.max B 1 : Nat) : ℝ)))
    (hc : Clean ls) (hpl : ∀ l ∈ ls, Plain l) (eta : ℝ) (d : Data.Dataset ℝ) (b epochs fuel : Nat) (hb : 1 ≤ b)
    (hf : batchCount d.size b ≤ fuel) (s : Nat → List ℝ × List ℝ)
    (hd : ∀ i, i < d.size → d.input i = .ok (s i).1 ∧ d.label i = .ok (s i).2)
    (hs : ∀ pre θ, pre <+: batches d.size b epochs →
      Descent ls eta (pre.map fun is θ => cost f m (1 / ((Nat.max B 1 : Nat) : ℝ)) (is.map s) (withTheta ls θ))
        (ls.map AnyLayer.params) θ →
      ∀ i, i < d.size → FitSample (withTheta ls θ) f nin m (s i).1 (s i).2 ∧ SmoothAll (withTheta ls θ) (s i).1) :
    ∃ (n' : Net) (ls' : List AnyLayer), Training.fit (Opt.gdStep eta) d fuel epochs b ((), n0) = some (.ok ((), n')) ∧
      p.map (fun i => n'.layers[i]?) = ls'.map some ∧
      ∀ ε > 0, ∃ δ > 0, ∀ (A : Arith) (L : Lib A), Precise A L δ →
        ∃ ks, fitF L f (invBatchF A B) (.fin eta) ((batches d.size b epochs).map (List.map s)) (floats A ls) = .ok ks ∧
          CloseTo ε ks (ls'.map AnyLayer.params) := by
  obtain ⟨n', ls', a1, a2, a3⟩ := C71_fit_partial ops n0 hg hlen p q hp h2 ls f nin m _ hr hc eta d b epochs fuel hb hf
    s hd fun pre θ h1 h2 i hi => by
      obtain ⟨h3, h4⟩ := hs pre θ h1 h2 i hi
      exact goodSample_of_all h3 h4
  refine ⟨n', ls', a1, a2, float_fit hr.sizes hpl hc B eta _ ?_ ?_⟩
  · intro pre θ1 h1 h2 b' hb' s' hs'
    obtain ⟨pre', h3, rfl⟩ := prefix_of_map h1
    rw [List.map_map] at h2
    obtain ⟨is, his, rfl⟩ := List.mem_map.mp hb'
    obtain ⟨i, hi, rfl⟩ := List.mem_map.mp hs'
    exact hs pre' θ1 h3 h2 i (mem_batches his i hi)
  · rw [List.map_map]
    exact a3

theorem alwaysSmooth_set {l : AnyLayer} {P : List (List ℝ)} (h : AlwaysSmooth l) : AlwaysSmooth (l.setParams P) := by
  unfold AnyLayer.setParams
  split <;> first | trivial | exact h

theorem mem_withTheta {ls : List AnyLayer} {θ : Theta} {l : AnyLayer} (h : l ∈ withTheta ls θ) :
    ∃ a ∈ ls, ∃ P, l = a.setParams P := by
  unfold withTheta at h
  obtain ⟨j, hj⟩ := List.mem_iff_getElem?.mp h
  rw [List.getElem?_zipWith] at hj
  cases h1 : ls[j]? with
  | none => rw [h1] at hj; cases hj
  | some a =>
    cases h2 : θ[j]? with
    | none => rw [h1, h2] at hj; cases hj
    | some P =>
      rw [h1, h2] at hj
      cases hj
      exact ⟨a, List.mem_of_getElem? h1, P, rfl⟩

/-- The derivative of softmax in floating point: `DLMath::softmax_1` of arrays of finite numbers gives, for numbers of
enough precision, finite numbers as close as wanted to the products of the Jacobian of softmax with the gradients. -/
theorem C88_softmax_derivative (x g : List ℝ) (n : Nat) (hn : 0 < n) (hx : x.length = n) (hg : g.length = n) :
    ∀ ε > 0, ∃ δ > 0, ∀ (A : Arith) (L : Lib A), Precise A L δ → ∀ dst : List (Fl A), dst.length = n →
      ∃ d, softmax1F L dst (fins A x) (fins A g) n = .ok (fins A d) ∧ d.length = n ∧
        ∀ i, i < n → |vec d i - ∑ j ∈ Finset.range n,
          softmaxFn n (vec x) i * ((if i = j then 1 else 0) - softmaxFn n (vec x) j) * vec g j| ≤ ε := by
  intro ε hε
  have hF := fine_isFine
  have nx := nearL_fins (F := fine) (A := Format.A) x
  have ng := nearL_fins (F := fine) (A := Format.A) g
  have hexp : ∀ j, j < n → Near fine (fun i : Format => i.L.expF (vec (fins i.A x) j)) (Real.exp (vec x j)) :=
    fun j hj => near_exp hF (nx.2 j (by omega))
  have hpos := Act.sum_exp_pos hn (vec x)
  have hsum : Near fine (fun i : Format => ordSum 0 n fun j => i.L.expF (vec (fins i.A x) j))
      (∑ j ∈ Finset.range n, Real.exp (vec x j)) := by
    have := near_ordSum hF near_zero hexp
    rwa [ordSum_eq_sum, zero_add] at this
  have hY : ∀ j, j < n → Near fine (fun i : Format => i.L.expF (vec (fins i.A x) j) *
      (1 / ordSum 0 n fun j => i.L.expF (vec (fins i.A x) j))) (softmaxFn n (vec x) j) := by
    intro j hj
    have key := near_mul hF (hexp j hj) (near_div hF near_one hsum hpos.ne')
    rw [mul_one_div] at key
    exact key
  have nL : NearL fine (fun i : Format => tab n fun a => ordSum 0 n fun j =>
      (i.L.expF (vec (fins i.A x) a) * (1 / ordSum 0 n fun j => i.L.expF (vec (fins i.A x) j))) *
        ((if a = j then 1 else 0) - i.L.expF (vec (fins i.A x) j) *
          (1 / ordSum 0 n fun j => i.L.expF (vec (fins i.A x) j))) * vec (fins i.A g) j)
      (tab n fun a => ∑ j ∈ Finset.range n,
        softmaxFn n (vec x) a * ((if a = j then 1 else 0) - softmaxFn n (vec x) j) * vec g j) := by
    refine nearL_tab fun a ha => ?_
    have := near_ordSum hF near_zero (n := n)
      (fun j hj => near_mul hF (near_mul hF (hY a ha) (near_sub hF (show Near fine (fun i : Format =>
        ((if a = j then 1 else 0 : Fl i.A))) (if a = j then 1 else 0) by
          split
          · exact near_one
          · exact near_zero) (hY j hj))) (ng.2 j (by omega)))
    rwa [ordSum_eq_sum, zero_add] at this
  obtain ⟨δ, hδ, hP⟩ := eventually_fine (nearL_close nL hε)
  refine ⟨δ, hδ, fun A L hL dst hd => ?_⟩
  obtain ⟨d, h1, h2, h3⟩ := hP ⟨A, L⟩ hL
  have hl : d.length = n := by simpa using h2
  refine ⟨d, ?_, hl, fun i hi => ?_⟩
  · rw [← h1]
    unfold softmax1F
    rw [softmaxF_eq L (by simp) (by simp [fins, hx]), Exec.bind_ok,
      softmax1OptF_eq hd (by simp) (by simp [fins, hg])]
    congr 1
    apply tab_congr
    intro a ha
    apply ordSum_congr
    intro j hj
    rw [vec_tab _ ha, vec_tab _ hj]
  · have := h3 i (by simpa using hi)
    rw [vec_tab _ hi] at this
    exact this.le

/-- Three inputs with the gradient of the first output. -/
example : ∃ δ > 0, ∀ (A : Arith) (L : Lib A), Precise A L δ → ∃ d,
    softmax1F L (List.replicate 3 0) (fins A [0, 1, -1]) (fins A [1, 0, 0]) 3 = .ok (fins A d) ∧ d.length = 3 := by
  obtain ⟨δ, h1, h2⟩ := C88_softmax_derivative [0, 1, -1] [1, 0, 0] 3 (by omega) rfl rfl 1 one_pos
  refine ⟨δ, h1, fun A L hL => ?_⟩
  obtain ⟨d, h3, h4, _⟩ := h2 A L hL (List.replicate 3 0) (by simp)
  exact ⟨d, h3, h4⟩

/-- **C88** for feedforward networks: whatever descriptors for dense layers are added, with tanh, sigmoid, softmax,
linear or exponential (factor 1) activations, for all parameter values `θ`, all data sets with rows of the
declared sizes, all batch sizes, epochs and step sizes: `fit` with mean squared errors and
`GradientDescentOptimizer(eta)`, done in exact arithmetic, ends with some model, and for every tolerance there is a
precision such that training on floating-point numbers of at least that precision ends within the tolerance of
it. -/
theorem C88_fnn (ds : List Descriptor) (f : Fnn) (outcomes : List (Option String))
    (h : Fnn.empty.addAll ds = .ok (f, outcomes)) (hne : accepted ds outcomes ≠ [])
    (hr : ∀ a ∈ f.layers, Regular a) (hs : ∀ a ∈ f.layers, AlwaysSmooth a) (hpl : ∀ a ∈ f.layers, Plain a)
    (θ : Theta) (hθ : FitsTheta f.layers θ) (b : Nat) (hb : 1 ≤ b) (epochs fuel : Nat) (eta : ℝ)
    (d : Data.Dataset ℝ) (hf : batchCount d.size b ≤ fuel) (z : AnyLayer)
    (hz : f.layers.getLast? = some z) (hpos : 0 < z.outputSize) (s : Nat → List ℝ × List ℝ)
    (hd : ∀ i, i < d.size → d.input i = .ok (s i).1 ∧ d.label i = .ok (s i).2 ∧
      (s i).1.length = declaredInput ds ∧ (s i).2.length = z.outputSize) :
    ∃ (f' : Fnn) (n' : Net), f.addLosses .mse b = .ok (f', none) ∧
      Training.fit (Opt.gdStep eta) d fuel epochs b
        ((), ⟨f'.model.graph, withTheta f.layers θ ++ f'.layers.drop f.layers.length⟩)
        = some (.ok ((), n')) ∧
      ∀ ε > 0, ∃ δ > 0, ∀ (A : Arith) (L : Lib A), Precise A L δ →
        ∃ ks, fitF L .mse (invBatchF A b) (.fin eta) ((batches d.size b epochs).map (List.map s))
            (floats A (withTheta f.layers θ)) = .ok ks ∧
          CloseTo ε ks ((n'.layers.take f.layers.length).map AnyLayer.params) := by
  have hbt := built_all h
  have hpos2 : 0 < (accepted ds outcomes).length := List.length_pos_iff.mpr hne
  obtain ⟨j, hj⟩ : ∃ j, 2 * (accepted ds outcomes).length = j + 2 :=
    ⟨_, (Nat.sub_add_cancel (by omega)).symm⟩
  have hg := hbt.graph
  have hlay := hbt.layers
  rw [hj] at hg
  have hz' : f.layers[j + 1]? = some z := by
    rw [← hz, List.getLast?_eq_getElem?, hlay, hj]
    rfl
  obtain ⟨m', e1, e2⟩ := addLosses_ok hg hz' .mse b
  rw [← hj] at e2
  have hp := isTrainingPath_of_pathLoss e2
  have hl := lists_of_path e2.some hp.path (by simp; omega)
  have ht := built_trainable hbt hne hr hz
  have h0 := built_atTheta hbt hne hr hz e2 .mse b hb (1 / 10) hθ
  have hinv : (1 / (b : ℝ)) = 1 / ((Nat.max b 1 : Nat) : ℝ) := by
    rw [show Nat.max b 1 = b from Nat.max_eq_left hb]
  rw [hinv] at h0
  have htθ := trainable_withTheta ht hθ
  have hplθ : ∀ l ∈ withTheta f.layers θ, Plain l := by
    intro l hl
    obtain ⟨a, ha, P, rfl⟩ := mem_withTheta hl
    exact plain_set (hpl a ha)
  have hgood : ∀ θ1, FitsTheta (withTheta f.layers θ) θ1 → ∀ i, i < d.size →
      FitSample (withTheta (withTheta f.layers θ) θ1) .mse (declaredInput ds) z.outputSize (s i).1 (s i).2 ∧
      SmoothAll (withTheta (withTheta f.layers θ) θ1) (s i).1 := by
    intro θ1 h1 i hi
    have h5 := hd i hi
    refine ⟨⟨h5.2.2.1, ⟨h5.2.2.2, hpos, by simp⟩, by intro e; cases e⟩,
      smoothAll_always (trainable_withTheta htθ h1) h5.2.2.1 ?_⟩
    intro l hl
    obtain ⟨a, ha, P, rfl⟩ := mem_withTheta hl
    obtain ⟨c, hc, Q, rfl⟩ := mem_withTheta ha
    exact alwaysSmooth_set (alwaysSmooth_set (hs c hc))
  have h1 : AtTheta m'.graph (List.range (2 * (accepted ds outcomes).length)) (2 * (accepted ds outcomes).length)
      (withTheta f.layers θ) .mse (declaredInput ds) z.outputSize (1 / ((Nat.max b 1 : Nat) : ℝ))
      ((withTheta f.layers θ).map AnyLayer.params)
      ⟨m'.graph, withTheta f.layers θ ++ [.loss .mse (Loss.Layer.new z.outputSize b (1 / 10))]⟩
      (withTheta f.layers θ) := by
    refine ⟨h0.graph, h0.length, h0.ready, h0.clean, fits_params _, ?_⟩
    rw [withTheta_params]
  have hsm : ∀ θ1, FitsTheta (withTheta f.layers θ) θ1 → ∀ is ∈ batches d.size b epochs, ∀ i ∈ is,
      GoodSample (withTheta (withTheta f.layers θ) θ1) .mse (declaredInput ds) z.outputSize (s i).1 (s i).2 :=
    fun θ1 h6 is his i hi => by
      obtain ⟨g1, g2⟩ := hgood θ1 h6 i (mem_batches his i hi)
      exact goodSample_of_all g1 g2
  obtain ⟨n', ks', θ', a1, a2, a3⟩ := fit_path eta e2.ok.ok hl hp (by
    intro e; simp at e; exact hne e) htθ d s
    (batches d.size b epochs) _ _ _ h1
    (fun is his i hi => by
      have := hd i (mem_batches his i hi)
      exact ⟨this.1, this.2.1⟩)
    (fun pre θ1 h3 h4 is his i hi => hsm θ1 (fits_descent h4 (fits_params _)) is his i hi)
  refine ⟨_, n', e1, ?_, ?_⟩
  · rw [C37_fit _ d b epochs fuel hb hf, trainCalls_batches]
    simp only [List.drop_left']
    rw [a1]
  · have := take_of_path a2.ready.layers
    rw [← hlay] at this
    rw [this, a2.params]
    refine float_fit htθ hplθ h0.clean b eta _ ?_ ?_
    · intro pre θ1 h3 h4 b' hb' s' hs'
      obtain ⟨pre', h5, rfl⟩ := prefix_of_map h3
      obtain ⟨is, his, rfl⟩ := List.mem_map.mp hb'
      obtain ⟨i, hi, rfl⟩ := List.mem_map.mp hs'
      exact hgood θ1 (fits_descent h4 (fits_params _)) i (mem_batches his i hi)
    · rw [List.map_map]
      exact a3

/-- The hypotheses of `C88_fnn` hold for a network with two inputs, three hidden units with tanh and a sigmoid
output, any parameters, the truth table of exclusive or, batches of three samples and 100 epochs: on numbers
that are precise enough, its training ends within a millionth of the exact result. -/
example (w1 w2 b1 b2 : List ℝ) (h1 : w1.length = 6) (h2 : b1.length = 3) (h3 : w2.length = 3)
    (h4 : b2.length = 1) : ∃ f, Fnn.empty.addAll tanhNet = .ok (f, [none, none, none]) ∧
      ∃ (f' : Fnn) (n' : Net), f.addLosses .mse 3 = .ok (f', none) ∧
        Training.fit (Opt.gdStep (1 / 10)) xorData 2 100 3
          ((), ⟨f'.model.graph, withTheta f.layers [[w1, b1], [], [w2, b2], []]
            ++ f'.layers.drop f.layers.length⟩) = some (.ok ((), n')) ∧
        ∃ (A : Arith) (L : Lib A) (ks : List (FLayer A)), CloseTo (1 / 1000000) ks ((n'.layers.take 4).map AnyLayer.params) := by
  have key : ∀ i, i < 4 →
      xorData.input i = .ok [([0, 0, 1, 1] : List ℝ).getD i 0, ([0, 1, 0, 1] : List ℝ).getD i 0] ∧
      xorData.label i = .ok [([0, 1, 1, 0] : List ℝ).getD i 0] := by
    intro i hi
    have h0 : Spec.Consistent xorData := Data.consistent_ofVec _ _ _ _
    rw [C43_input h0, C43_label h0, if_pos (show i < xorData.size from hi)]
    match i with
    | 0 | 1 | 2 | 3 => exact ⟨rfl, rfl⟩
    | i + 4 => omega
  refine ⟨_, rfl, ?_⟩
  obtain ⟨f', n', e1, e2, e3⟩ := C88_fnn tanhNet _ _ rfl (by intro e; cases e) (by
    intro a ha
    obtain ⟨i, hi⟩ := List.mem_iff_getElem?.mp ha
    match i with
    | 0 | 1 | 2 | 3 => cases hi; trivial
    | i + 4 => cases hi) (by
    intro a ha
    obtain ⟨i, hi⟩ := List.mem_iff_getElem?.mp ha
    match i with
    | 0 | 1 | 2 | 3 => cases hi; trivial
    | i + 4 => cases hi) (by
    intro a ha
    obtain ⟨i, hi⟩ := List.mem_iff_getElem?.mp ha
    match i with
    | 0 | 1 | 2 | 3 => cases hi; trivial
    | i + 4 => cases hi)
    [[w1, b1], [], [w2, b2], []] (by
      unfold FitsTheta
      simp [h1, h2, h3, h4]
      rfl) 3 (by omega) 100 2 (1 / 10) xorData (by decide) _ rfl (by decide)
    (fun i => ([([0, 0, 1, 1] : List ℝ).getD i 0, ([0, 1, 0, 1] : List ℝ).getD i 0], [([0, 1, 1, 0] : List ℝ).getD i 0]))
    (fun i hi => ⟨(key i hi).1, (key i hi).2, rfl, rfl⟩)
  obtain ⟨δ, hδ, e4⟩ := e3 (1 / 1000000) (by norm_num)
  obtain ⟨A, L, hA⟩ := precise_exists δ hδ
  obtain ⟨ks, _, e5⟩ := e4 A L hA
  exact ⟨f', n', e1, e2, A, L, ks, e5⟩

end

end Verif.Props

import Verif.Proofs.JointTheta

/-! Training runs with small learning rates. -/

namespace Verif.Net
open Verif.Spec Finset Filter Topology

noncomputable section

section
variable {V : Type} [NormedAddCommGroup V] [NormedSpace ℝ V]

theorem twice_near {e0 : V} {n : Nat} {X : V → List ℝ} (hX : DVec (fun u : V → ℝ => ContinuousAt u e0) n X)
    {l : AnyLayer} (h : SmoothTwiceAt (X e0) l) : ∀ᶠ e in 𝓝 e0, SmoothTwiceAt (X e) l := by
  have key : (∀ v ∈ X e0, v ≠ 0) → ∀ᶠ e in 𝓝 e0, ∀ v ∈ X e, v ≠ 0 := by
    intro h0
    have h1 : ∀ᶠ e in 𝓝 e0, ∀ j ∈ Finset.range n, vec (X e) j ≠ 0 :=
      (Filter.eventually_all_finset _).mpr fun j hj => by
        have hj' : j < n := by simpa using hj
        exact (hX.2 j hj').eventually_ne (h0 _ (List.mem_of_getElem? (getElem?_vec (by rw [hX.1]; exact hj'))))
    filter_upwards [h1] with e he v hv
    obtain ⟨j, hj⟩ := List.mem_iff_getElem?.mp hv
    have hlt := (List.getElem?_eq_some_iff.mp hj).1
    have := he j (by simpa using hX.1 e ▸ hlt)
    rw [getElem?_vec hlt] at hj
    cases hj
    exact this
  cases l with
  | act f a =>
    cases f with
    | relu => exact key h
    | elu a =>
      filter_upwards [key h.2] with e he
      exact ⟨h.1, he⟩
    | _ => exact Eventually.of_forall fun _ => trivial
  | dense l => exact Eventually.of_forall fun _ => trivial
  | conv l => exact Eventually.of_forall fun _ => trivial
  | maxPool l => exact clear_near (fun j => hX.all (closed_continuousAt e0) j) h
  | _ => exact h.elim

/-- Smoothness along the path at `e0` is smoothness near `e0`. -/
theorem along_near {e0 : V} {ls : List AnyLayer} {n m : Nat} (h : Trainable n m ls) : ∀ {Θ : V → Theta},
    DTheta (fun u : V → ℝ => ContinuousAt u e0) ls Θ → ∀ {X : V → List ℝ},
    DVec (fun u : V → ℝ => ContinuousAt u e0) n X → Along SmoothTwiceAt (withTheta ls (Θ e0)) (X e0) →
    ∀ᶠ e in 𝓝 e0, Along SmoothTwiceAt (withTheta ls (Θ e)) (X e) := by
  induction h with
  | nil n =>
    intro Θ _ X _ _
    exact Eventually.of_forall fun e => by simpa [withTheta] using Along.nil (X e)
  | @cons n k m l ls h1 h2 _ ih =>
    intro Θ hΘ X hX hs
    have hc := fun e => fitsTheta_cons (hΘ.1 e)
    choose P Θ' e1 e2 e3 using hc
    obtain rfl : Θ = fun e => P e :: Θ' e := funext e1
    have hP : DParams (fun u : V → ℝ => ContinuousAt u e0) l P :=
      ⟨e2, fun b k hb hk' => hΘ.2 0 l b k rfl hb hk'⟩
    cases hs with
    | cons s1 s2 s3 s4 =>
    have s1' := smoothTwiceAt_setParams.mp s1
    obtain ⟨Z, z1, z2⟩ := layer_joint (closed_continuousAt e0) h1 hP hX
      (kept_continuousAt e0 l n X (hX.1 e0) s1')
    obtain ⟨l', f1, f2⟩ := z2 e0 _ rfl
    rw [s2] at f1
    cases f1
    rw [s3] at f2
    cases f2
    filter_upwards [ih (Θ := Θ') ⟨e3, fun j l b k hj => hΘ.2 (j + 1) l b k hj⟩ z1 s4,
      twice_near hX s1'] with e g1 g2
    obtain ⟨l'', g3, g4⟩ := z2 e _ rfl
    exact .cons (smoothTwiceAt_setParams.mpr g2) g3 g4 g1

end

/-- The biases of convolutions do not matter. -/
theorem along_biasFree {n m : Nat} {ls : List AnyLayer} (h : Trainable n m ls) : ∀ {θ θ' : Theta},
    FitsTheta ls θ → FitsTheta ls θ' →
    (∀ (j : Nat) (l : AnyLayer) (b k : Nat), ls[j]? = some l → Learned l b → b < l.params.length →
      k < (l.params.getD b []).length → entry (θ.getD j []) b k = entry (θ'.getD j []) b k) →
    ∀ {x : List ℝ}, x.length = n → Along SmoothTwiceAt (withTheta ls θ) x →
    Along SmoothTwiceAt (withTheta ls θ') x := by
  induction h with
  | nil n => intro θ θ' _ _ _ x _ _; simpa [withTheta] using Along.nil x
  | @cons n k m l ls h1 h2 _ ih =>
    intro θ θ' hθ hθ' he x hx hs
    obtain ⟨ps, θ, rfl, a1, a2⟩ := fitsTheta_cons hθ
    obtain ⟨qs, θ', rfl, b1, b2⟩ := fitsTheta_cons hθ'
    obtain ⟨z, z0, z1, z2⟩ := layer_biasFree h1 h2 a1 b1 (fun b k => he 0 l b k rfl) hx
    cases hs with
    | cons s1 s2 s3 s4 =>
    obtain ⟨l', f1, f2⟩ := z1 _ rfl
    rw [s2] at f1
    cases f1
    rw [s3] at f2
    cases f2
    obtain ⟨l'', g3, g4⟩ := z2 _ rfl
    exact .cons (smoothTwiceAt_setParams.mpr (smoothTwiceAt_setParams.mp s1)) g3 g4
      (ih a2 b2 (fun j l b k hj => he (j + 1) l b k hj) z0 s4)

/-- A sample at which the model with parameters `θ` can be trained, and with all parameters near. -/
def GoodTwice (ls : List AnyLayer) (f : LossFn) (n m : Nat) (x t : List ℝ) : Prop :=
  FitSample ls f n m x t ∧ Along SmoothTwiceAt ls x

theorem GoodTwice.all {ls : List AnyLayer} {f : LossFn} {n m : Nat} {x t : List ℝ}
    (h : GoodTwice ls f n m x t) : FitSample ls f n m x t ∧ SmoothAll ls x :=
  ⟨h.1, smooth_of_along (along_mono smoothAt_of_twice h.2)⟩

theorem GoodTwice.good {ls : List AnyLayer} {f : LossFn} {n m : Nat} {x t : List ℝ}
    (h : GoodTwice ls f n m x t) : GoodSample ls f n m x t :=
  goodSample_of_all h.all.1 h.all.2

theorem good_near {ls : List AnyLayer} {n m : Nat} (h : Trainable n m ls) {θ : Theta} (hθ : FitsTheta ls θ)
    {f : LossFn} {x t : List ℝ} (hg : GoodTwice (withTheta ls θ) f n m x t) :
    ∀ᶠ e in 𝓝 (toVec ls θ), ∀ θ', Agree ls θ' e → GoodTwice (withTheta ls θ') f n m x t := by
  obtain ⟨⟨g1, g3, g4⟩, g5⟩ := hg
  have hΘ : DTheta (fun u : (PIdx ls → ℝ) → ℝ => ContinuousAt u (toVec ls θ)) ls ofVec :=
    dtheta_ofVec fun i => continuousAt_apply i _
  have hX : DVec (fun u : (PIdx ls → ℝ) → ℝ => ContinuousAt u (toVec ls θ)) n (fun _ => x) :=
    ⟨fun _ => g1, fun j _ => continuousAt_const⟩
  have h1 := along_near h hΘ hX (by rw [ofVec_toVec hθ]; exact g5)
  obtain ⟨Y, y1, y2⟩ := layers_joint (closed_continuousAt _) (toVec ls θ) (S := SmoothTwiceAt)
    (kept_continuousAt _) (fun x l ps => smoothTwiceAt_setParams.mp) h hΘ hX
    (by rw [ofVec_toVec hθ]; exact g5)
  have h2 : ∀ᶠ e in 𝓝 (toVec ls θ), LossSmooth f m t (Y e) := by
    have y0 : prediction (withTheta ls θ) x = Y (toVec ls θ) := by
      have := y2 (toVec ls θ)
      rw [ofVec_toVec hθ] at this
      exact prediction_of this
    rw [y0] at g4
    by_cases hf : f = .cce
    · have h3 : ∀ᶠ e in 𝓝 (toVec ls θ), ∀ i ∈ Finset.range m, vec t i ≠ 0 → Loss.epsilon < vec (Y e) i :=
        (Filter.eventually_all_finset _).mpr fun i hi => by
          have hi' : i < m := by simpa using hi
          by_cases hz : vec t i = 0
          · exact Eventually.of_forall fun e hne => absurd hz hne
          · filter_upwards [Filter.Tendsto.eventually_const_lt (g4 hf i hi' hz) (y1.2 i hi')] with e he _
            exact he
      filter_upwards [h3] with e he _ i hi hz
      exact he i (by simpa using hi) hz
    · exact Eventually.of_forall fun e hf' => absurd hf' hf
  filter_upwards [h1, h2] with e k1 k2 θ' ha
  have hagree : ∀ (j : Nat) (l : AnyLayer) (b k : Nat), ls[j]? = some l → Learned l b → b < l.params.length →
      k < (l.params.getD b []).length → entry ((ofVec e).getD j []) b k = entry (θ'.getD j []) b k := by
    intro j l b k hj hl hb hk
    obtain ⟨i, rfl, rfl, rfl, rfl⟩ := getD_get hj hb hk
    rw [entry_ofVec]
    exact (ha.2 i hl).symm
  have k3 := along_biasFree h (fits_ofVec e) ha.1 hagree g1 k1
  refine ⟨⟨g1, g3, ?_⟩, k3⟩
  obtain ⟨y, w1, w2⟩ := layers_biasFree h (fits_ofVec e) ha.1 hagree g1
  rw [prediction_of w2, ← prediction_of w1, prediction_of (y2 e)]
  exact k2

theorem points_walk {ι : Type} [Fintype ι] [DecidableEq ι] {s : ι → Prop} [DecidablePred s]
    {C : (ι → ℝ) → ℝ} (eta : ℝ) (k : Nat) : ∀ e, points s C eta e k = walk s eta (List.replicate k C) e := by
  induction k with
  | zero => intro e; rfl
  | succ k ih => intro e; rw [points_succ, ih]; rfl

/-- Gradient descent follows `walk`. -/
theorem descent_agree {ls : List AnyLayer} {eta : ℝ} {cs : List (Theta → ℝ)} {θ θ' : Theta}
    (h : Descent ls eta cs θ θ') : ∀ {e : PIdx ls → ℝ}, Agree ls θ e → (∀ c ∈ cs, BiasFree ls c) →
    (∀ pre, pre <+: cs.map (fun c e => c (ofVec e)) → ∀ c ∈ cs, DifferentiableAt ℝ (fun e => c (ofVec e))
      (walk (learnedIdx ls) eta pre e)) →
    Agree ls θ' (walk (learnedIdx ls) eta (cs.map fun c e => c (ofVec e)) e) := by
  induction h with
  | nil θ => intro e he _ _; exact he
  | @cons c cs θ θ1 θ' h1 _ ih =>
    intro e he hb hd
    refine ih (agree_step (hb c (by simp)) he (hd [] (by simp) c (by simp)) h1)
      (fun c' hc' => hb c' (by simp [hc'])) ?_
    intro pre hpre c' hc'
    exact hd ((fun e => c (ofVec e)) :: pre) (by simpa using hpre) c' (by simp [hc'])

theorem partials_sum {ι : Type} [Fintype ι] [DecidableEq ι] {s : ι → Prop} [DecidablePred s] {e : ι → ℝ} :
    ∀ (Cs : List ((ι → ℝ) → ℝ)), (∀ C ∈ Cs, DifferentiableAt ℝ C e) →
    DifferentiableAt ℝ (fun e => (Cs.map fun C => C e).sum) e ∧
    (Cs.map fun C => partials s C e).sum = partials s (fun e => (Cs.map fun C => C e).sum) e := by
  intro Cs
  induction Cs with
  | nil =>
    intro _
    refine ⟨by simp, ?_⟩
    funext i
    simp [partials]
  | cons C Cs ih =>
    intro h
    obtain ⟨h1, h2⟩ := ih fun C hC => h C (by simp [hC])
    have h3 := h C (by simp)
    simp only [List.map_cons, List.sum_cons]
    refine ⟨h3.fun_add h1, ?_⟩
    rw [h2]
    funext i
    simp only [partials, Pi.add_apply]
    split
    · rw [fderiv_fun_add h3 h1]
      rfl
    · simp

theorem partials_const_mul {ι : Type} [Fintype ι] [DecidableEq ι] {s : ι → Prop} [DecidablePred s] {e : ι → ℝ}
    {F : (ι → ℝ) → ℝ} (hF : DifferentiableAt ℝ F e) (N : ℝ) :
    partials s (fun e => N * F e) e = N • partials s F e := by
  funext i
  simp only [partials, Pi.smul_apply]
  split
  · rw [fderiv_const_mul hF]
    rfl
  · simp

theorem good_near_all {ls : List AnyLayer} {n m : Nat} (h : Trainable n m ls) {θ : Theta}
    (hθ : FitsTheta ls θ) {f : LossFn} (s : Nat → List ℝ × List ℝ) (is : List Nat)
    (hg : ∀ i ∈ is, GoodTwice (withTheta ls θ) f n m (s i).1 (s i).2) :
    ∀ᶠ e in 𝓝 (toVec ls θ), ∀ θ', Agree ls θ' e → ∀ i ∈ is,
      GoodTwice (withTheta ls θ') f n m (s i).1 (s i).2 := by
  have : ∀ᶠ e in 𝓝 (toVec ls θ), ∀ i ∈ is.toFinset, ∀ θ', Agree ls θ' e →
      GoodTwice (withTheta ls θ') f n m (s i).1 (s i).2 :=
    (Filter.eventually_all_finset _).mpr fun i hi => good_near h hθ (hg i (by simpa using hi))
  filter_upwards [this] with e he θ' ha i hi
  exact he i (by simpa using hi) θ' ha

theorem agree_ofVec {ls : List AnyLayer} (e : PIdx ls → ℝ) : Agree ls (ofVec e) e :=
  ⟨fits_ofVec e, fun i _ => congrFun (toVec_ofVec e) i⟩

theorem cost_atTheta {g : Graph.DLGraph} {p : List Nat} {q : Nat} {ls : List AnyLayer} {f : LossFn} {nin m : Nat}
    {inv : ℝ} (ht : Trainable nin m ls) {θ : Theta} {n : Net} {ks : List AnyLayer}
    (h : AtTheta g p q ls f nin m inv θ n ks) {samples : List (List ℝ × List ℝ)}
    (hs : ∀ s ∈ samples, s.1.length = nin) :
    cost f m inv samples ks = cost f m inv samples (withTheta ls θ) := by
  refine congrArg List.sum (List.map_congr_left ?_)
  intro s hs'
  obtain ⟨y, w1, _⟩ := layers_biasFree ht h.fits h.fits (fun _ _ _ _ _ _ _ _ => rfl) (hs s hs')
  rw [prediction_core h.core w1]

/-- A run over the batches `bs` with a small learning rate decreases the cost of the samples `tot` if
the batches are these samples, over and over. -/
theorem run_small {g : Graph.DLGraph} {p : List Nat} {q : Nat} {ls : List AnyLayer} {f : LossFn} {nin m : Nat}
    {inv : ℝ} (hok : Graph.Ok g) (hl : Graph.Lists g) (hp : IsTrainingPath g p q) (hne : p ≠ [])
    (ht : Trainable nin m ls) (d : Data.Dataset ℝ) (s : Nat → List ℝ × List ℝ) (bs : List (List Nat))
    (tot : List Nat) {θ : Theta} {n : Net} {ks : List AnyLayer} (h : AtTheta g p q ls f nin m inv θ n ks)
    (hd : ∀ is ∈ bs, ∀ i ∈ is, i ∈ tot) (hd' : ∀ i ∈ tot, d.input i = .ok (s i).1 ∧ d.label i = .ok (s i).2)
    (hs : ∀ i ∈ tot, GoodTwice (withTheta ls θ) f nin m (s i).1 (s i).2) {N : ℝ} (hN : 0 < N)
    (hsum : ∀ L, (bs.map fun is => cost f m inv (is.map s) L).sum = N * cost f m inv (tot.map s) L)
    (hslope : HasSlope ls (fun θ => cost f m inv (tot.map s) (withTheta ls θ)) θ) :
    ∃ δ > 0, ∀ eta : ℝ, 0 < eta → eta < δ → ∃ n' ks' θ',
      performAll (Training.modelOps (Opt.gdStep eta) d) (bs.flatMap batchCalls) ((), n) = .ok ((), n') ∧
      AtTheta g p q ls f nin m inv θ' n' ks' ∧
      cost f m inv (tot.map s) ks' < cost f m inv (tot.map s) ks := by
  have hθ := h.fits
  have hlen : ∀ i ∈ tot, (s i).1.length = nin := fun i hi => (hs i hi).1.size
  have hmem : ∀ is ∈ bs, ∀ x ∈ is.map s, ∃ i ∈ tot, x = s i := by
    intro is his x hx
    obtain ⟨i, hi, rfl⟩ := List.mem_map.mp hx
    exact ⟨i, hd is his i hi, rfl⟩
  have htm : ∀ x ∈ tot.map s, ∃ i ∈ tot, x = s i := by
    intro x hx
    obtain ⟨i, hi, rfl⟩ := List.mem_map.mp hx
    exact ⟨i, hi, rfl⟩
  let cs : List (Theta → ℝ) := bs.map fun is θ => cost f m inv (is.map s) (withTheta ls θ)
  let Cs : List ((PIdx ls → ℝ) → ℝ) := cs.map fun c e => c (ofVec e)
  have hfree : ∀ c ∈ cs, BiasFree ls c := by
    intro c hc
    obtain ⟨is, his, rfl⟩ := List.mem_map.mp hc
    refine cost_biasFree ht inv fun x hx => ?_
    obtain ⟨i, hi, rfl⟩ := hmem is his x hx
    exact hlen i hi
  have hfreeT : BiasFree ls fun θ => cost f m inv (tot.map s) (withTheta ls θ) :=
    cost_biasFree ht inv fun x hx => by
      obtain ⟨i, hi, rfl⟩ := htm x hx
      exact hlen i hi
  have hC2 : ∀ C ∈ Cs, ContDiffAt ℝ 2 C (toVec ls θ) := by
    intro C hC
    obtain ⟨c, hc, rfl⟩ := List.mem_map.mp hC
    obtain ⟨is, his, rfl⟩ := List.mem_map.mp hc
    refine cost_contDiffAt ht inv hθ fun x hx => ?_
    obtain ⟨i, hi, rfl⟩ := hmem is his x hx
    exact hs i hi
  have hF : DifferentiableAt ℝ (fun e : PIdx ls → ℝ => cost f m inv (tot.map s) (withTheta ls (ofVec e)))
      (toVec ls θ) :=
    cost_differentiableAt ht inv hθ fun x hx => by
      obtain ⟨i, hi, rfl⟩ := htm x hx
      exact (hs i hi).all
  have hgrad : (Cs.map fun C => partials (learnedIdx ls) C (toVec ls θ)).sum
      = N • partials (learnedIdx ls)
        (fun e : PIdx ls → ℝ => cost f m inv (tot.map s) (withTheta ls (ofVec e))) (toVec ls θ) := by
    rw [(partials_sum Cs fun C hC => (hC2 C hC).differentiableAt (by norm_num)).2,
      ← partials_const_mul hF]
    congr 1
    funext e
    simp only [Cs, cs, List.map_map]
    exact hsum _
  obtain ⟨δ, hδ, key⟩ := walk_descends hC2 hF hN hgrad (agree_slope hfreeT (agree_self hθ) hF hslope)
    (good_near_all ht hθ s tot hs)
  refine ⟨δ, hδ, fun eta a1 a2 => ?_⟩
  obtain ⟨b1, b2⟩ := key eta a1 a2
  have hdiff : ∀ pre, pre <+: Cs → ∀ c ∈ cs, DifferentiableAt ℝ (fun e => c (ofVec e))
      (walk (learnedIdx ls) eta pre (toVec ls θ)) := by
    intro pre hpre c hc
    obtain ⟨is, his, rfl⟩ := List.mem_map.mp hc
    have := cost_differentiableAt ht inv (samples := is.map s) (f := f)
      (fits_ofVec (walk (learnedIdx ls) eta pre (toVec ls θ))) (fun x hx => by
        obtain ⟨i, hi, rfl⟩ := hmem is his x hx
        exact (b2 pre hpre _ (agree_ofVec _) i hi).all)
    rw [toVec_ofVec] at this
    exact this
  have hwalk : ∀ pre θ1, pre <+: bs → Descent ls eta
      (pre.map fun is θ => cost f m inv (is.map s) (withTheta ls θ)) θ θ1 →
      Agree ls θ1 (walk (learnedIdx ls) eta
        ((pre.map fun is θ => cost f m inv (is.map s) (withTheta ls θ)).map fun c e => c (ofVec e))
        (toVec ls θ)) := by
    intro pre θ1 hpre hdes
    have hsub : pre.map (fun is θ => cost f m inv (is.map s) (withTheta ls θ)) <+: cs := hpre.map _
    refine descent_agree hdes (agree_self hθ) (fun c hc => hfree c (hsub.subset hc)) ?_
    intro pr hpr c hc
    exact hdiff pr (hpr.trans (hsub.map _)) c (hsub.subset hc)
  obtain ⟨n', ks', θ', c1, c2, c3⟩ := fit_path eta hok hl hp hne ht d s bs θ n ks h
    (fun is his i hi => hd' i (hd is his i hi))
    (fun pre θ1 hpre hdes is his i hi =>
      (b2 _ ((hpre.map _).map _) θ1 (hwalk pre θ1 hpre hdes) i (hd is his i hi)).good)
  refine ⟨n', ks', θ', c1, c2, ?_⟩
  have hts : ∀ x ∈ tot.map s, x.1.length = nin := fun x hx => by
    obtain ⟨i, hi, rfl⟩ := htm x hx
    exact hlen i hi
  have q1 := hfreeT _ _ (hwalk bs θ' List.prefix_rfl c3)
  have q2 := hfreeT _ _ (agree_self hθ)
  dsimp only at q1 q2
  rw [cost_atTheta ht c2 hts, cost_atTheta ht h hts, q1, q2]
  exact b1

/-- Runs of up to `N` epochs with one batch each. -/
theorem run_small_full {g : Graph.DLGraph} {p : List Nat} {q : Nat} {ls : List AnyLayer} {f : LossFn}
    {nin m : Nat} {inv : ℝ} (hok : Graph.Ok g) (hl : Graph.Lists g) (hp : IsTrainingPath g p q) (hne : p ≠ [])
    (ht : Trainable nin m ls) (d : Data.Dataset ℝ) (s : Nat → List ℝ × List ℝ)
    (tot : List Nat) {θ : Theta} {n : Net} {ks : List AnyLayer} (h : AtTheta g p q ls f nin m inv θ n ks)
    (hd' : ∀ i ∈ tot, d.input i = .ok (s i).1 ∧ d.label i = .ok (s i).2)
    (hs : ∀ i ∈ tot, GoodTwice (withTheta ls θ) f nin m (s i).1 (s i).2) (N : Nat) :
    ∃ δ > 0, ∀ eta : ℝ, 0 < eta → eta < δ → ∃ (ns : Nat → Net) (kss : Nat → List AnyLayer) (θs : Nat → Theta),
      (∀ k ≤ N, performAll (Training.modelOps (Opt.gdStep eta) d)
          ((List.replicate k tot).flatMap batchCalls) ((), n) = .ok ((), ns k) ∧
        AtTheta g p q ls f nin m inv (θs k) (ns k) (kss k)) ∧
      ∀ k < N, cost f m inv (tot.map s) (kss (k + 1)) ≤ cost f m inv (tot.map s) (kss k) ∧
        (HasSlope ls (fun θ => cost f m inv (tot.map s) (withTheta ls θ)) (θs k) →
          cost f m inv (tot.map s) (kss (k + 1)) < cost f m inv (tot.map s) (kss k)) := by
  have hθ := h.fits
  have hts : ∀ x ∈ tot.map s, x.1.length = nin := fun x hx => by
    obtain ⟨i, hi, rfl⟩ := List.mem_map.mp hx
    exact (hs i hi).1.size
  let c : Theta → ℝ := fun θ => cost f m inv (tot.map s) (withTheta ls θ)
  have hfree : BiasFree ls c := cost_biasFree ht inv hts
  have hC2 : ContDiffAt ℝ 2 (fun e : PIdx ls → ℝ => c (ofVec e)) (toVec ls θ) :=
    cost_contDiffAt ht inv hθ fun x hx => by
      obtain ⟨i, hi, rfl⟩ := List.mem_map.mp hx
      exact hs i hi
  obtain ⟨δ, hδ, key⟩ := eventually_points (s := learnedIdx ls) hC2 (good_near_all ht hθ s tot hs) N
  refine ⟨δ, hδ, fun eta a1 a2 => ?_⟩
  have key := key eta a1 a2
  have hdiff : ∀ k ≤ N, DifferentiableAt ℝ (fun e => c (ofVec e))
      (points (learnedIdx ls) (fun e => c (ofVec e)) eta (toVec ls θ) k) := by
    intro k hk
    have := cost_differentiableAt ht inv (samples := tot.map s) (f := f)
      (fits_ofVec (points (learnedIdx ls) (fun e => c (ofVec e)) eta (toVec ls θ) k)) (fun x hx => by
        obtain ⟨i, hi, rfl⟩ := List.mem_map.mp hx
        exact ((key k hk).1 _ (agree_ofVec _) i hi).all)
    rw [toVec_ofVec] at this
    exact this
  have hwalk : ∀ k ≤ N, ∀ θ1, Descent ls eta (List.replicate k c) θ θ1 →
      Agree ls θ1 (points (learnedIdx ls) (fun e => c (ofVec e)) eta (toVec ls θ) k) := by
    intro k hk θ1 hdes
    have := descent_agree hdes (agree_self hθ) (fun c' hc' => by
      rw [List.eq_of_mem_replicate hc']; exact hfree) (by
      intro pr hpr c' hc'
      rw [List.eq_of_mem_replicate hc']
      rw [List.map_replicate] at hpr
      have hlt := hpr.length_le
      rw [List.length_replicate] at hlt
      have hpr' : pr = List.replicate pr.length fun e => c (ofVec e) :=
        List.eq_replicate_iff.mpr ⟨rfl, fun b hb => List.eq_of_mem_replicate (hpr.subset hb)⟩
      rw [hpr', ← points_walk]
      exact hdiff _ (by omega))
    rw [List.map_replicate, ← points_walk] at this
    exact this
  have hrun : ∀ k, ∃ n' ks' θ', k ≤ N → performAll (Training.modelOps (Opt.gdStep eta) d)
        ((List.replicate k tot).flatMap batchCalls) ((), n) = .ok ((), n') ∧
      AtTheta g p q ls f nin m inv θ' n' ks' ∧
      Agree ls θ' (points (learnedIdx ls) (fun e => c (ofVec e)) eta (toVec ls θ) k) := by
    intro k
    by_cases hk : k ≤ N
    · obtain ⟨n', ks', θ', c1, c2, c3⟩ := fit_path eta hok hl hp hne ht d s (List.replicate k tot) θ n ks h
        (fun is his i hi => by rw [List.eq_of_mem_replicate his] at hi; exact hd' i hi)
        (fun pre θ1 hpre hdes is his i hi => by
          rw [List.eq_of_mem_replicate his] at hi
          have hlt := hpre.length_le
          rw [List.length_replicate] at hlt
          have hpre' : pre = List.replicate pre.length tot :=
            List.eq_replicate_iff.mpr ⟨rfl, fun b hb => List.eq_of_mem_replicate (hpre.subset hb)⟩
          rw [hpre', List.map_replicate] at hdes
          exact ((key _ (by omega)).1 _ (hwalk _ (by omega) θ1 hdes) i hi).good)
      rw [List.map_replicate] at c3
      exact ⟨n', ks', θ', fun _ => ⟨c1, c2, hwalk k hk θ' c3⟩⟩
    · exact ⟨n, ks, θ, fun hk' => absurd hk' hk⟩
  choose ns kss θs hall using hrun
  refine ⟨ns, kss, θs, fun k hk => ⟨(hall k hk).1, (hall k hk).2.1⟩, fun k hk => ?_⟩
  obtain ⟨_, e2, e3⟩ := hall k (by omega)
  obtain ⟨_, f2, f3⟩ := hall (k + 1) (by omega)
  obtain ⟨g1, g2⟩ := (key k (by omega)).2
  rw [cost_atTheta ht e2 hts, cost_atTheta ht f2 hts]
  show c (θs (k + 1)) ≤ c (θs k) ∧ (_ → c (θs (k + 1)) < c (θs k))
  rw [hfree _ _ e3, hfree _ _ f3]
  refine ⟨g1, fun hsl => ?_⟩
  obtain ⟨i, hi⟩ := agree_slope hfree e3 (hdiff k (by omega)) hsl
  exact g2 i hi

end

end Verif.Net

import Verif.Proofs.Barrier
import Verif.Props.Backprop
import Verif.Proofs.BackFnn

namespace Verif.Props

open Verif.Spec Verif.Training Verif.Net Verif.Graph Finset

/-! ### C39: thread-parallel training as gradient descent -/

theorem batchSamples_range (n b k : Nat) : batchSamples n b k = List.range' (k * b) (min b (n - k * b)) := by
  unfold batchSamples
  apply List.ext_getElem
  · simp
  · intro i h1 h2
    simp

/-- The samples of the rounds of an epoch are the batches of an epoch. -/
theorem rounds_batches (tasks : Nat → Nat × List (List Nat)) (n adv : Nat) (hadv : 1 ≤ adv)
    (h : ∀ i, i < n → (tasks i).1 = min (i + adv) n ∨ (tasks i).1 = i + adv)
    (h' : ∀ i, i < n → (tasks i).2.flatten = List.range' i (min adv (n - i))) :
    ∀ (fuel k i : Nat) (rs : List (List (List Nat))), (i = k * adv ∨ (i = n ∧ n ≤ k * adv)) →
    rounds tasks n fuel i = some rs →
    rs.map List.flatten = (List.range' k (batchCount n adv - k)).map (batchSamples n adv) := by
  intro fuel
  induction fuel with
  | zero =>
    intro k i rs hi hr
    unfold rounds at hr
    split at hr
    · cases hr
    · rename_i hin
      cases hr
      have : ¬ k < batchCount n adv := by
        rw [lt_batchCount hadv]
        omega
      rw [show batchCount n adv - k = 0 by omega]
      rfl
  | succ fuel ih =>
    intro k i rs hi hr
    unfold rounds at hr
    split at hr
    · rename_i hin
      dsimp only at hr
      obtain ⟨rs', e1, rfl⟩ := Option.map_eq_some_iff.mp hr
      have hk : i = k * adv := by omega
      have hlt : k < batchCount n adv := (lt_batchCount hadv).mpr (by omega)
      have hmul : (k + 1) * adv = k * adv + adv := by rw [Nat.add_mul, Nat.one_mul]
      have := ih (k + 1) (tasks i).1 rs' (by
        rcases h i hin with e | e
        · rw [e]; omega
        · rw [e]; omega) e1
      rw [List.map_cons, this, h' i hin, show batchCount n adv - k = (batchCount n adv - (k + 1)) + 1 by omega,
        List.range'_succ, List.map_cons, batchSamples_range, hk]
    · rename_i hin
      cases hr
      have : ¬ k < batchCount n adv := by
        rw [lt_batchCount hadv]
        omega
      rw [show batchCount n adv - k = 0 by omega]
      rfl

theorem entryRounds_batches {n b fuel : Nat} (hb : 1 ≤ b) {rs : List (List (List Nat))}
    (h : entryRounds n b fuel = some rs) :
    rs.map List.flatten = (List.range (batchCount n b)).map (batchSamples n b) := by
  have := rounds_batches (fun i => entryTasks n b i) n b hb
    (by intro i hi; left; rw [entryTasks_eq]; dsimp only; omega)
    (by
      intro i hi
      rw [entryTasks_eq]
      dsimp only
      generalize List.range' i (min b (n - i)) = l
      induction l with
      | nil => rfl
      | cons a l ih => exact congrArg (a :: ·) ih) fuel 0 0 rs (Or.inl (by simp)) h
  rw [this, Nat.sub_zero, List.range_eq_range']

theorem batchRounds_batches {n b threads fuel : Nat} (hb : 1 ≤ b) (ht : 1 ≤ threads)
    (hw : n + threads * b < 2 ^ 64) {rs : List (List (List Nat))}
    (h : batchRounds n b threads fuel = some rs) :
    rs.map List.flatten
      = (List.range (batchCount n (threads * b))).map (batchSamples n (threads * b)) := by
  have := rounds_batches (fun i => batchTasks n b threads i) n (threads * b) (Nat.mul_pos ht hb)
    (fun i hi => .inr (batchTasks_spec n b threads i (by omega)).1)
    (by
      intro i hi
      obtain ⟨_, _, e3, _⟩ := batchTasks_spec n b threads i (by omega)
      show (batchTasks n b threads i).2.flatten = _
      rw [e3, Nat.min_eq_left (by omega : i ≤ n)]) fuel 0 0 rs (Or.inl (by simp)) h
  rw [this, Nat.sub_zero, List.range_eq_range']

/-- `reset_score` on a model in memory. -/
theorem reset_world {A : List (List Nat)} {h : Heap} {M : Mod} (hI : Inv A ⟨h, [M]⟩) :
    h.store M.objs (M.view h).resetScore.layers = h ∧
    (M.update (M.view h).resetScore).view h = (M.view h).resetScore ∧
    Inv A ⟨h, [M.update (M.view h).resetScore]⟩ := by
  have hpar : (M.view h).resetScore.layers.map AnyLayer.params = (M.view h).layers.map AnyLayer.params := by
    unfold Net.resetScore
    apply List.ext_getElem
    · simp
    · intro i h1 h2
      simp only [List.getElem_map, List.getElem_mapIdx]
      split
      · split <;> simp_all [AnyLayer.params]
      · rfl
  have hs : h.store M.objs (M.view h).resetScore.layers = h := put_same (k := 0) hI (m := M) rfl hpar
  have hl : (M.view h).resetScore.layers.map (·.params.length) = (M.view h).layers.map (·.params.length) := by
    have := congrArg (List.map List.length) hpar
    simpa [Function.comp_def] using this
  obtain ⟨c1, c2, _⟩ := put_world (k := 0) hI (m := M) rfl hl
  unfold World.put at c1 c2
  dsimp only at c1 c2
  rw [hs] at c1 c2
  exact ⟨hs, c2, c1⟩

theorem trainer_path {g : DLGraph} {p : List Nat} {q : Nat} {ls : List AnyLayer} {f : LossFn} {nin m : Nat}
    {inv : ℝ} (eta : ℝ) (hok : Ok g) (hl : Lists g) (hp : IsTrainingPath g p q) (hne : p ≠ [])
    (ht : Trainable nin m ls) (d : Data.Dataset ℝ) (s : Nat → List ℝ × List ℝ) {A : List (List Nat)} :
    ∀ (rs : List (List (List Nat) × List Event)) (h : Heap) (M : Mod) (θ : Theta) (ks : List AnyLayer),
    Inv A ⟨h, [M]⟩ → AtTheta g p q ls f nin m inv θ (M.view h) ks →
    (∀ r ∈ rs, Execution r.1.length ⟨[], 0⟩ r.2 ∧ Barrier r.2) →
    (∀ r ∈ rs, ∀ i ∈ r.1.flatten, d.input i = .ok (s i).1 ∧ d.label i = .ok (s i).2) →
    (∀ pre θ1, pre <+: rs.map (fun r => r.1.flatten) → Descent ls eta
        (pre.map fun is θ => cost f m inv (is.map s) (withTheta ls θ)) θ θ1 →
      ∀ r ∈ rs, ∀ i ∈ r.1.flatten, GoodSample (withTheta ls θ1) f nin m (s i).1 (s i).2) →
    ∃ t θ' ks', Trainer.rounds (Opt.gdStep eta) d ⟨(), h, M⟩ rs = .ok t ∧
      AtTheta g p q ls f nin m inv θ' (t.model.view t.heap) ks' ∧
      Descent ls eta ((rs.map fun r => r.1.flatten).map fun is θ => cost f m inv (is.map s) (withTheta ls θ)) θ θ' := by
  intro rs
  induction rs with
  | nil => intro h M θ ks _ hat _ _ _; exact ⟨_, θ, ks, rfl, hat, .nil θ⟩
  | cons r rs ih =>
    intro h M θ ks hI hat he hd hg
    obtain ⟨w1, w2, w3⟩ := reset_world hI
    have hat' := atTheta_reset hp hat
    rw [← w2] at hat'
    obtain ⟨r1, θ1, ks1, a1, a2, a3, a4⟩ := round_path eta hok hl hp hne ht w3 hat' d s r.1
      (fun is his i hi => hd r (by simp) i (List.mem_flatten.mpr ⟨is, his, hi⟩))
      (fun is his i hi => hg [] θ List.nil_prefix (.nil θ) r (by simp) i (List.mem_flatten.mpr ⟨is, his, hi⟩))
      r.2 (he r (by simp)).1 (he r (by simp)).2
    obtain ⟨t, θ', ks', b1, b2, b3⟩ := ih r1.heap _ θ1 ks1 a2 a3 (fun r' h' => he r' (by simp [h']))
      (fun r' h' => hd r' (by simp [h']))
      (fun pre θ2 hpre hdes r' h' => hg (r.1.flatten :: pre) θ2 (by simpa using hpre) (.cons a4 hdes) r'
        (by simp [h']))
    refine ⟨t, θ', ks', ?_, b2, .cons a4 b3⟩
    unfold Trainer.rounds Trainer.round
    dsimp only
    rw [w1, a1, Exec.bind_ok, Exec.bind_ok]
    exact b1

theorem parallel_descent {ops : List Op} {n0 : Net} (hg : n0.graph = (built ops).graph)
    (hlen : n0.layers.length = n0.graph.layers.length)
    {p : List Nat} {q : Nat} (hp : IsTrainingPath n0.graph p q) (h2 : 2 ≤ p.length)
    {ls : List AnyLayer} {f : LossFn} {nin m : Nat} {inv : ℝ} (hr : Ready n0 p q ls f nin m inv)
    (hc : Clean ls) (eta : ℝ) (d : Data.Dataset ℝ) (b epochs : Nat)
    (s : Nat → List ℝ × List ℝ)
    (hd : ∀ i, i < d.size → d.input i = .ok (s i).1 ∧ d.label i = .ok (s i).2)
    (hs : ∀ pre θ, pre <+: batches d.size b epochs →
      Descent ls eta (pre.map fun is θ => cost f m inv (is.map s) (withTheta ls θ))
        (ls.map AnyLayer.params) θ →
      ∀ i, i < d.size → GoodSample (withTheta ls θ) f nin m (s i).1 (s i).2)
    {rs : List (List (List Nat))}
    (hrs : rs.map List.flatten = (List.range (batchCount d.size b)).map (batchSamples d.size b))
    {ess : List (List Event)}
    (he : List.Forall₂ (fun tasks es => Execution tasks.length ⟨[], 0⟩ es ∧ Barrier es)
      (List.replicate epochs rs).flatten ess)
    {heap : Heap} {objs : List Obj} (hobj : alloc [] n0.layers = (heap, objs)) :
    ∃ (t : Trainer Unit) (ls' : List AnyLayer),
      Trainer.rounds (Opt.gdStep eta) d ⟨(), heap, ⟨n0.graph, objs⟩⟩
        ((List.replicate epochs rs).flatten.zip ess) = .ok t ∧
      p.map (fun i => (t.model.view t.heap).layers[i]?) = ls'.map some ∧
      Descent ls eta
        ((batches d.size b epochs).map fun is θ => cost f m inv (is.map s) (withTheta ls θ))
        (ls.map AnyLayer.params) (ls'.map AnyLayer.params) := by
  obtain ⟨hok, hl⟩ := path_graph hg hp.path h2
  have hI : Inv (addrs objs) ⟨heap, [⟨n0.graph, objs⟩]⟩ := by
    have := inv_of n0
    unfold World.of at this
    rw [hobj] at this
    exact this
  have hv : (⟨n0.graph, objs⟩ : Mod).view heap = n0 := by
    have := view_of n0
    unfold World.of at this
    rw [hobj] at this
    simpa using this
  have h0 : AtTheta n0.graph p q ls f nin m inv (ls.map AnyLayer.params)
      ((⟨n0.graph, objs⟩ : Mod).view heap) ls := by
    rw [hv]
    refine ⟨rfl, hlen, hr, hc, ?_, ?_⟩
    · unfold FitsTheta
      rw [List.map_map]
      rfl
    · rw [withTheta_params]
  have hz : ((List.replicate epochs rs).flatten.zip ess).map (fun r => r.1.flatten) = batches d.size b epochs := by
    have e1 : ((List.replicate epochs rs).flatten.zip ess).map (fun r => r.1.flatten)
        = (List.replicate epochs rs).flatten.map List.flatten := by
      have := List.map_fst_zip (l₁ := (List.replicate epochs rs).flatten) (l₂ := ess)
        (le_of_eq he.length_eq)
      conv_rhs => rw [← this]
      rw [List.map_map]
      rfl
    rw [e1, List.map_flatten, List.map_replicate, hrs]
    rfl
  have hmem : ∀ r ∈ (List.replicate epochs rs).flatten.zip ess, ∀ i ∈ r.1.flatten, i < d.size := by
    intro r hr i hi
    have : r.1.flatten ∈ batches d.size b epochs := by
      rw [← hz]
      exact List.mem_map_of_mem (f := fun r : List (List Nat) × List Event => r.1.flatten) hr
    exact mem_batches this i hi
  obtain ⟨t, θ', ks', a1, a2, a3⟩ := trainer_path eta hok hl hp (by rintro rfl; simp at h2) hr.sizes d s
    ((List.replicate epochs rs).flatten.zip ess) heap ⟨n0.graph, objs⟩ _ ls hI h0
    (by
      intro r hr
      obtain ⟨i, hi, rfl⟩ := List.mem_iff_getElem.mp hr
      rw [List.length_zip] at hi
      rw [List.getElem_zip]
      exact (List.forall₂_iff_get.mp he).2 i (by omega) (by omega))
    (fun r hr i hi => hd i (hmem r hr i hi))
    (fun pre θ1 h3 h4 r hr i hi => hs pre θ1 (by rw [hz] at h3; exact h3) h4 i (hmem r hr i hi))
  refine ⟨t, ks', a1, a2.ready.layers, ?_⟩
  rw [a2.params, ← hz]
  exact a3

/-- **C39**, partial: training with `THREAD_PARALLELISM_ON_DATA_ENTRY` and gradient descent.  For every model
whose connections form a path of layers into one loss layer, with clear gradients, every data set, batch size
of at least 1, number of epochs and learning rate: if in each round all tasks finish before the first result
is applied, then whatever the order of the tasks, training ends with the parameters of gradient descent, batch
after batch: the statement that `C71_fit_partial` makes for sequential training with the same batch size.  As
there, everything is assumed to be differentiable at the samples and parameters reached, and nothing is said
about the biases of convolutions.  Missing: the code does not wait for all tasks (`C39_refuted`). -/
theorem C39_entry_partial (ops : List Op) (n0 : Net) (hg : n0.graph = (built ops).graph)
    (hlen : n0.layers.length = n0.graph.layers.length)
    (p : List Nat) (q : Nat) (hp : IsTrainingPath n0.graph p q) (h2 : 2 ≤ p.length)
    (ls : List AnyLayer) (f : LossFn) (nin m : Nat) (inv : ℝ) (hr : Ready n0 p q ls f nin m inv)
    (hc : Clean ls) (eta : ℝ) (d : Data.Dataset ℝ) (b epochs fuel : Nat) (hb : 1 ≤ b)
    (hf : batchCount d.size b ≤ fuel) (s : Nat → List ℝ × List ℝ)
    (hd : ∀ i, i < d.size → d.input i = .ok (s i).1 ∧ d.label i = .ok (s i).2)
    (hs : ∀ pre θ, pre <+: batches d.size b epochs →
      Descent ls eta (pre.map fun is θ => cost f m inv (is.map s) (withTheta ls θ))
        (ls.map AnyLayer.params) θ →
      ∀ i, i < d.size → GoodSample (withTheta ls θ) f nin m (s i).1 (s i).2)
    (heap : Heap) (objs : List Obj) (hobj : alloc [] n0.layers = (heap, objs)) :
    ∃ rs, entryRounds d.size b fuel = some rs ∧
      ∀ ess, List.Forall₂ (fun tasks es => Execution tasks.length ⟨[], 0⟩ es ∧ Barrier es)
        (List.replicate epochs rs).flatten ess →
      ∃ (t : Trainer Unit) (ls' : List AnyLayer),
        Trainer.rounds (Opt.gdStep eta) d ⟨(), heap, ⟨n0.graph, objs⟩⟩
          ((List.replicate epochs rs).flatten.zip ess) = .ok t ∧
        p.map (fun i => (t.model.view t.heap).layers[i]?) = ls'.map some ∧
        Descent ls eta
          ((batches d.size b epochs).map fun is θ => cost f m inv (is.map s) (withTheta ls θ))
          (ls.map AnyLayer.params) (ls'.map AnyLayer.params) := by
  obtain ⟨rs, h1, _⟩ := C38_entry_tasks d.size b fuel hb hf
  exact ⟨rs, h1, fun ess he => parallel_descent hg hlen hp h2 hr hc eta d b epochs s hd hs
    (entryRounds_batches hb h1) he hobj⟩

/-- **C39**, partial: the same for `THREAD_PARALLELISM_ON_DATA_BATCH` with `threads` worker threads: gradient
descent whose batches have `threads * b` samples, while the factor `inv` of the loss layer, made for the batch
size `b`, stays. -/
theorem C39_batch_partial (ops : List Op) (n0 : Net) (hg : n0.graph = (built ops).graph)
    (hlen : n0.layers.length = n0.graph.layers.length)
    (p : List Nat) (q : Nat) (hp : IsTrainingPath n0.graph p q) (h2 : 2 ≤ p.length)
    (ls : List AnyLayer) (f : LossFn) (nin m : Nat) (inv : ℝ) (hr : Ready n0 p q ls f nin m inv)
    (hc : Clean ls) (eta : ℝ) (d : Data.Dataset ℝ) (b threads epochs fuel : Nat) (hb : 1 ≤ b)
    (ht : 1 ≤ threads) (hw : d.size + threads * b < 2 ^ 64) (hf : batchCount d.size (threads * b) ≤ fuel)
    (s : Nat → List ℝ × List ℝ)
    (hd : ∀ i, i < d.size → d.input i = .ok (s i).1 ∧ d.label i = .ok (s i).2)
    (hs : ∀ pre θ, pre <+: batches d.size (threads * b) epochs →
      Descent ls eta (pre.map fun is θ => cost f m inv (is.map s) (withTheta ls θ))
        (ls.map AnyLayer.params) θ →
      ∀ i, i < d.size → GoodSample (withTheta ls θ) f nin m (s i).1 (s i).2)
    (heap : Heap) (objs : List Obj) (hobj : alloc [] n0.layers = (heap, objs)) :
    ∃ rs, batchRounds d.size b threads fuel = some rs ∧
      ∀ ess, List.Forall₂ (fun tasks es => Execution tasks.length ⟨[], 0⟩ es ∧ Barrier es)
        (List.replicate epochs rs).flatten ess →
      ∃ (t : Trainer Unit) (ls' : List AnyLayer),
        Trainer.rounds (Opt.gdStep eta) d ⟨(), heap, ⟨n0.graph, objs⟩⟩
          ((List.replicate epochs rs).flatten.zip ess) = .ok t ∧
        p.map (fun i => (t.model.view t.heap).layers[i]?) = ls'.map some ∧
        Descent ls eta
          ((batches d.size (threads * b) epochs).map fun is θ => cost f m inv (is.map s) (withTheta ls θ))
          (ls.map AnyLayer.params) (ls'.map AnyLayer.params) := by
  obtain ⟨rs, h1, _⟩ := C38_batch_tasks d.size b threads fuel hb ht hw hf
  exact ⟨rs, h1, fun ess he => parallel_descent hg hlen hp h2 hr hc eta d (threads * b) epochs s hd hs
    (batchRounds_batches hb ht hw h1) he hobj⟩

/-- Three samples in batches of two, two dense layers with any parameters; in the first round the second task finishes
first. -/
theorem three_rounds (w0 w1 b0 b1 : ℝ) : ∃ t, Trainer.rounds (Opt.gdStep (1 / 10)) (Data.ofVec [1, 0, 2, 1, 3, 0] 2 1 {1})
    ⟨(), [[w0], [b0], [w1], [b1]], ⟨(built threeLayers).graph,
      [⟨.dense { denseNew 1 1 with weights := [w0], biases := [b0] }, [0, 1]⟩,
       ⟨.dense { denseNew 1 1 with weights := [w1], biases := [b1] }, [2, 3]⟩,
       ⟨.loss .mse (Loss.Layer.new 1 2 (1 / 10)), []⟩]⟩⟩
    [([[0], [1]], [.task 1, .task 0, .train 0, .train 1]), ([[2]], [.task 0, .train 0])] = .ok t := by
  have key : ∀ i, i < 3 →
      (Data.ofVec [1, 0, 2, 1, 3, 0] 2 1 {1} : Data.Dataset ℝ).input i = .ok [([1, 2, 3] : List ℝ).getD i 0] ∧
      (Data.ofVec [1, 0, 2, 1, 3, 0] 2 1 {1} : Data.Dataset ℝ).label i = .ok [([0, 1, 0] : List ℝ).getD i 0] := by
    intro i hi
    have h0 : Spec.Consistent (Data.ofVec [1, 0, 2, 1, 3, 0] 2 1 {1} : Data.Dataset ℝ) :=
      Data.consistent_ofVec _ _ _ _
    rw [C43_input h0, C43_label h0, if_pos (show i < (Data.ofVec [1, 0, 2, 1, 3, 0] 2 1 {1} : Data.Dataset ℝ).size from hi)]
    match i with
    | 0 | 1 | 2 => exact ⟨rfl, rfl⟩
    | i + 3 => omega
  let ls : List AnyLayer := [.dense { denseNew 1 1 with weights := [w0], biases := [b0] },
    .dense { denseNew 1 1 with weights := [w1], biases := [b1] }]
  let n0 : Net := ⟨(built threeLayers).graph, ls ++ [.loss .mse (Loss.Layer.new 1 2 (1 / 10))]⟩
  have htr : Trainable 1 1 ls :=
    .cons ⟨rfl, rfl, rfl, rfl, rfl⟩ ⟨rfl, rfl, rfl⟩ (.cons ⟨rfl, rfl, rfl, rfl, rfl⟩ ⟨rfl, rfl, rfl⟩ (.nil 1))
  have hclean : Clean ls := by
    refine ⟨?_, ?_⟩
    · intro a ha
      rcases List.mem_pair.mp ha with rfl | rfl <;> rfl
    · intro a ha b k hb hk
      rcases List.mem_pair.mp ha with rfl | rfl <;>
      · match b, k with
        | 0, 0 => rfl
        | 1, 0 => rfl
        | 0, k + 1 => simp [AnyLayer.params] at hk
        | 1, k + 1 => simp [AnyLayer.params] at hk
        | b + 2, k => simp [AnyLayer.params] at hb
  obtain ⟨rs, h1, h2⟩ := C39_entry_partial threeLayers n0 rfl rfl [0, 1] 2 three_path (by decide) ls .mse 1 1 (1 / 2)
    ⟨rfl, htr, _, rfl, rfl, rfl, by simp [Loss.Layer.new]⟩ hclean (1 / 10)
    (Data.ofVec [1, 0, 2, 1, 3, 0] 2 1 {1}) 2 1 2 (by decide) (by decide)
    (fun i => ([([1, 2, 3] : List ℝ).getD i 0], [([0, 1, 0] : List ℝ).getD i 0])) key
    (by
      intro pre θ _ hθ i hi
      have h6 : FitsTheta ls θ := fits_descent hθ (by unfold FitsTheta; rw [List.map_map]; rfl)
      refine good_always htr ?_ h6 ⟨rfl, ⟨rfl, by decide, by simp⟩, by intro e; cases e⟩
      intro _ i _ a _ _ _ hi
      rcases List.mem_pair.mp (List.mem_of_getElem? hi) with rfl | rfl <;> trivial) _ _ rfl
  have hrs : rs = [[[0], [1]], [[2]]] := by
    have : entryRounds 3 2 2 = some [[[0], [1]], [[2]]] := by decide
    exact Option.some.inj (h1.symm.trans this)
  subst hrs
  obtain ⟨t, _, h3, _⟩ := h2 [[.task 1, .task 0, .train 0, .train 1], [.task 0, .train 0]] (by
    refine .cons ⟨?_, ⟨[1, 0], [0, 1], rfl⟩⟩ (.cons ⟨?_, ⟨[0], [0], rfl⟩⟩ .nil)
    · exact .task (by decide) (by decide) (.task (by decide) (by decide)
        (.train (p := ⟨[0, 1], 0⟩) (by decide) (by decide) (.train (p := ⟨[0, 1], 1⟩) (by decide) (by decide) (.done _))))
    · exact .task (by decide) (by decide) (.train (p := ⟨[0], 0⟩) (by decide) (by decide) (.done _)))
  exact ⟨t, h3⟩

end Verif.Props

import Verif.Proofs.Init
import Verif.Props.Graph

/-! C61: initialisation of the parameters of a model. -/

namespace Verif.Props

open Verif Verif.Graph Verif.Net Verif.Init Verif.Spec

/-- **C61**, the part that holds: with the same seed (not zero) two models with the same connections and
layers of the same classes and sizes get the same parameters, whatever parameters they had and whatever the
random device gives.  The graph is the one of any history of calls.
Missing: that the layers draw from one continuing stream, which is false (below). -/
theorem C61_reproducible_partial (rg : Random) (how : ModelInit) (pdf : Pdf) (seed : Nat) (hs : seed ≠ 0)
    (dev1 dev2 : Nat) (ops : List Op) (n1 n2 : Net) (hg1 : n1.graph = (built ops).graph)
    (hg2 : n2.graph = (built ops).graph) (hl1 : n1.layers.length = n1.graph.layers.length)
    (hl : List.Forall₂ Alike n1.layers n2.layers) :
    ∃ n1' n2', init rg how pdf dev1 seed n1 = .ok (n1', seed) ∧ init rg how pdf dev2 seed n2 = .ok (n2', seed) ∧
      n1'.graph = n1.graph ∧ n2'.graph = n2.graph ∧
      ∀ i : Nat, i ∉ n1.graph.loss → n1'.layers[i]?.map AnyLayer.params = n2'.layers[i]?.map AnyLayer.params := by
  have hl2 : n2.layers.length = n2.graph.layers.length := by rw [← hl.length_eq, hl1, hg1, hg2]
  obtain ⟨ls1, h1, h2, h3⟩ := init_spec rg (sound_of_built hg1 hl1) how pdf dev1 seed
  obtain ⟨ls2, g1, g2, g3⟩ := init_spec rg (sound_of_built hg2 hl2) how pdf dev2 seed
  rw [if_neg hs] at h1 h3 g1 g3
  refine ⟨_, _, h1, g1, rfl, rfl, ?_⟩
  intro i hi
  have hal : ∀ (j : Nat) (a b : AnyLayer), n1.layers[j]? = some a → n2.layers[j]? = some b → Alike a b := by
    intro j a b ha hb
    obtain ⟨ja, ea⟩ := List.getElem?_eq_some_iff.mp ha
    obtain ⟨jb, eb⟩ := List.getElem?_eq_some_iff.mp hb
    have := (List.forall₂_iff_get.mp hl).2 j ja jb
    rw [List.get_eq_getElem, List.get_eq_getElem, ea, eb] at this
    exact this
  have hrule : rule n1.graph n1.layers how i = rule n2.graph n2.layers how i := by
    rw [hg1, hg2]
    refine rule_congr (fun j => ?_) how i
    cases ha : n1.layers[j]? with
    | none => rw [List.getElem?_eq_none (by rw [← hl.length_eq]; exact List.getElem?_eq_none_iff.mp ha)]
    | some a =>
      have hj := (List.getElem?_eq_some_iff.mp ha).1
      rw [List.getElem?_eq_getElem (show j < n2.layers.length by rw [← hl.length_eq]; exact hj)]
      have := hal j a _ ha (List.getElem?_eq_getElem (by rw [← hl.length_eq]; exact hj))
      rw [Option.map_some, Option.map_some, alike_relu this]
  show ls1[i]?.map _ = ls2[i]?.map _
  rw [h3 i, if_neg hi, g3 i, if_neg (by rw [hg2, ← hg1]; exact hi), hrule]
  cases ha : n1.layers[i]? with
  | none => rw [List.getElem?_eq_none (by rw [← hl.length_eq]; exact List.getElem?_eq_none_iff.mp ha)]
  | some a =>
    have hj := (List.getElem?_eq_some_iff.mp ha).1
    have hb := List.getElem?_eq_getElem (show i < n2.layers.length by rw [← hl.length_eq]; exact hj)
    rw [hb, Option.map_some, Option.map_some, Option.map_some, Option.map_some,
      alike_params rg _ pdf _ (hal i a _ ha hb)]

/-- Example: two dense layers 2 → 2, one behind the other. -/
def twoDense : List Op := [.addLayer, .addLayer, .edge ⟨0, false⟩ ⟨1, false⟩]

/-- A dense layer 2 → 2 with the given weights and biases. -/
noncomputable def dense22 (w b : List ℝ) : Dense.Layer ℝ := ⟨2, 2, w, b, ⟨[0, 0], [0, 0, 0, 0], [0, 0]⟩, [0, 0], []⟩

/-- The hypotheses can be met: the two models start from different parameters. -/
example (rg : Random) (how : ModelInit) (pdf : Pdf) : ∃ n1' n2',
    init rg how pdf 1 7 ⟨(built twoDense).graph, [.dense (dense22 [1, 2, 3, 4] [5, 6]), .dense (dense22 [0, 0, 0, 0] [0, 0])]⟩
      = .ok (n1', 7) ∧
    init rg how pdf 2 7 ⟨(built twoDense).graph, [.dense (dense22 [0, 0, 0, 0] [0, 0]), .dense (dense22 [1, 1, 1, 1] [1, 1])]⟩
      = .ok (n2', 7) ∧ n1'.layers.map AnyLayer.params = n2'.layers.map AnyLayer.params := by
  obtain ⟨n1', n2', h1, h2, -, -, h⟩ := C61_reproducible_partial rg how pdf 7 (by decide) 1 2 twoDense
    ⟨(built twoDense).graph, [.dense (dense22 [1, 2, 3, 4] [5, 6]), .dense (dense22 [0, 0, 0, 0] [0, 0])]⟩
    ⟨(built twoDense).graph, [.dense (dense22 [0, 0, 0, 0] [0, 0]), .dense (dense22 [1, 1, 1, 1] [1, 1])]⟩
    rfl rfl rfl (.cons ⟨rfl, rfl, rfl⟩ (.cons ⟨rfl, rfl, rfl⟩ .nil))
  refine ⟨n1', n2', h1, h2, List.ext_getElem? fun i => ?_⟩
  rw [List.getElem?_map, List.getElem?_map]
  exact h i (by rw [show (built twoDense).graph.loss = [] from rfl]; simp)

/-- **C61**: without a seed, the seed that `init` returns reproduces the parameters (provided the random device
did not give zero, which stands for "no seed"). -/
theorem C61_returned_seed_partial (rg : Random) (how : ModelInit) (pdf : Pdf) (dev1 dev2 : Nat) (hd : dev1 ≠ 0)
    (n n' : Net) (s : Nat) (h : init rg how pdf dev1 0 n = .ok (n', s)) : init rg how pdf dev2 s n = .ok (n', s) := by
  have hs : s = dev1 := by
    unfold init at h
    obtain ⟨ls, _, h⟩ := Exec.bind_eq_ok h
    cases h
    rfl
  subst hs
  unfold init at h ⊢
  rw [if_neg hd]
  exact h

/-- **C61**, what the parameters are: every dense or convolutional layer that is not a loss layer gets, as its
`k`-th weight, the value made from the `k`-th output of an engine with the given seed, whatever comes before it
in the model; its biases are 0.01.  Layers without parameters and loss layers stay as they are. -/
theorem C61_values_actual (rg : Random) (how : ModelInit) (pdf : Pdf) (seed : Nat) (hs : seed ≠ 0) (dev : Nat)
    (ops : List Op) (n : Net) (hg : n.graph = (built ops).graph) (hl : n.layers.length = n.graph.layers.length) :
    ∃ n', init rg how pdf dev seed n = .ok (n', seed) ∧ n'.graph = n.graph ∧ n'.layers.length = n.layers.length ∧
      (∀ i l, n.layers[i]? = some (.dense l) → i ∉ n.graph.loss → ∃ w,
        n'.layers[i]? = some (.dense { l with weights := w, biases := List.replicate l.biases.length 0.01 }) ∧
        w.length = l.weights.length ∧ ∀ k < w.length,
          let σ := spread n.graph n.layers how i l.inputSize
          (pdf = .uniform → w[k]? = some (((raw rg (rg.seeded seed) k : ℝ) / rg.maxRand * 2 - 1) * (σ / 2))) ∧
          (pdf = .normal → w[k]? = some (nth (rg.normal 0 σ) (rg.noSpare, rg.seeded seed) k))) ∧
      (∀ i l, n.layers[i]? = some (.conv l) → i ∉ n.graph.loss → ∃ w,
        n'.layers[i]? = some (.conv { l with weights := w, biases := List.replicate l.biases.length 0.01 }) ∧
        w.length = l.weights.length ∧ ∀ k < w.length,
          let σ := spread n.graph n.layers how i (l.input.h * l.input.w * l.input.c)
          (pdf = .uniform → w[k]? = some (((raw rg (rg.seeded seed) k : ℝ) / rg.maxRand * 2 - 1) * (σ / 2))) ∧
          (pdf = .normal → w[k]? = some (nth (rg.normal 0 σ) (rg.noSpare, rg.seeded seed) k))) ∧
      ∀ i a, n.layers[i]? = some a → i ∈ n.graph.loss ∨ a.params = [] → n'.layers[i]? = some a := by
  obtain ⟨ls, h1, h2, h3⟩ := init_spec rg (sound_of_built hg hl) how pdf dev seed
  rw [if_neg hs] at h1 h3
  refine ⟨_, h1, rfl, h2, ?_, ?_, ?_⟩
  · intro i l hi hloss
    refine ⟨(fill (draw rg (rule n.graph n.layers how i) pdf l.inputSize) l.weights (rg.noSpare, rg.seeded seed)).1,
      ?_, fill_length _ _ _, ?_⟩
    · show ls[i]? = _
      rw [h3 i, if_neg hloss, hi, ← setAll_eq]
      rfl
    · intro k hk
      rw [fill_length] at hk
      dsimp only
      rw [fill_get _ _ _ k hk, draw_nth, variance_rule]
      exact ⟨fun h => by subst h; rfl, fun h => by subst h; rfl⟩
  · intro i l hi hloss
    refine ⟨(fill (draw rg (rule n.graph n.layers how i) pdf l.input.size) l.weights (rg.noSpare, rg.seeded seed)).1,
      ?_, fill_length _ _ _, ?_⟩
    · show ls[i]? = _
      rw [h3 i, if_neg hloss, hi, ← setAll_eq]
      rfl
    · intro k hk
      rw [fill_length] at hk
      dsimp only
      rw [fill_get _ _ _ k hk, draw_nth, variance_rule]
      exact ⟨fun h => by subst h; rfl, fun h => by subst h; rfl⟩
  · intro i a hi h
    show ls[i]? = _
    rw [h3 i]
    split
    · exact hi
    · rename_i hloss
      rcases h with h | h
      · exact absurd h hloss
      · rw [hi]
        cases a <;> first
          | rfl
          | (unfold AnyLayer.params at h; simp at h; done)

/-- **C61**, the parameters of a recurrent layer: the three weight blocks are drawn one after the other from the
engine with the given seed; the biases are 0.01 and the hidden state is zero. -/
theorem C61_recurrent_actual (rg : Random) (how : ModelInit) (pdf : Pdf) (seed : Nat) (hs : seed ≠ 0) (dev : Nat)
    (ops : List Op) (n : Net) (hg : n.graph = (built ops).graph) (hl : n.layers.length = n.graph.layers.length)
    (i : Nat) (f f1 : ℝ → ℝ) (l : Rnn.Layer ℝ) (hi : n.layers[i]? = some (.rnn f f1 l)) (hloss : i ∉ n.graph.loss) :
    ∃ n' wih whh who, init rg how pdf dev seed n = .ok (n', seed) ∧
      n'.layers[i]? = some (.rnn f f1 { l with
        wih := wih
        whh := whh
        who := who
        bh := List.replicate l.bh.length 0.01
        bo := List.replicate l.bo.length 0.01
        hidden := List.replicate l.hidden.length 0 }) ∧
      wih.length = l.wih.length ∧ whh.length = l.whh.length ∧ who.length = l.who.length ∧
      (pdf = .uniform →
        (∀ k < wih.length, wih[k]? = some (((raw rg (rg.seeded seed) k : ℝ) / rg.maxRand * 2 - 1) *
          (spread n.graph n.layers how i l.inputSize / 2))) ∧
        (∀ k < whh.length, whh[k]? = some (((raw rg (rg.seeded seed) (wih.length + k) : ℝ) / rg.maxRand * 2 - 1) *
          (spread n.graph n.layers how i l.hiddenSize / 2))) ∧
        (∀ k < who.length, who[k]? =
          some (((raw rg (rg.seeded seed) (wih.length + whh.length + k) : ℝ) / rg.maxRand * 2 - 1) *
            (spread n.graph n.layers how i l.hiddenSize / 2)))) ∧
      (pdf = .normal →
        let first := rg.normal 0 (spread n.graph n.layers how i l.inputSize)
        let second := rg.normal 0 (spread n.graph n.layers how i l.hiddenSize)
        let e := (after first (rg.noSpare, rg.seeded seed) wih.length).2
        (∀ k < wih.length, wih[k]? = some (nth first (rg.noSpare, rg.seeded seed) k)) ∧
        (∀ k < whh.length, whh[k]? = some (nth second (rg.noSpare, e) k)) ∧
        (∀ k < who.length, who[k]? = some (nth second (after second (rg.noSpare, e) whh.length) k))) := by
  obtain ⟨ls, h1, h2, h3⟩ := init_spec rg (sound_of_built hg hl) how pdf dev seed
  rw [if_neg hs] at h1 h3
  set di := draw rg (rule n.graph n.layers how i) pdf l.inputSize with hdi
  set dh := draw rg (rule n.graph n.layers how i) pdf l.hiddenSize with hdh
  refine ⟨_, (fill di l.wih (rg.noSpare, rg.seeded seed)).1,
    (fill dh l.whh (rg.noSpare, (fill di l.wih (rg.noSpare, rg.seeded seed)).2.2)).1,
    (fill dh l.who (fill dh l.whh (rg.noSpare, (fill di l.wih (rg.noSpare, rg.seeded seed)).2.2)).2).1, h1, ?_,
    fill_length _ _ _, fill_length _ _ _, fill_length _ _ _, ?_, ?_⟩
  · show ls[i]? = _
    rw [h3 i, if_neg hloss, hi, ← setAll_eq, ← setAll_eq, ← setAll_eq]
    rfl
  · rintro rfl
    simp only [fill_length]
    refine ⟨fun k hk => ?_, fun k hk => ?_, fun k hk => ?_⟩
    · rw [fill_get _ _ _ k hk, ← variance_rule]
      exact congrArg some (nth_uniform rg _ k _)
    · rw [fill_get _ _ _ k hk, ← variance_rule, fill_after]
      show some (nth (uniformDraw rg 0 _) _ k) = _
      rw [nth_uniform]
      show some (((raw rg (after (uniformDraw rg 0 _) _ _).2 k : ℝ) / _ * 2 - 1) * _) = _
      rw [raw_after]
    · rw [fill_get _ _ _ k hk, ← variance_rule, fill_after, fill_after]
      show some (nth (uniformDraw rg 0 _) (after (uniformDraw rg 0 _) _ _) k) = _
      rw [nth_uniform, raw_after]
      show some (((raw rg (after (uniformDraw rg 0 _) _ _).2 (_ + k) : ℝ) / _ * 2 - 1) * _) = _
      rw [raw_after, Nat.add_assoc]
  · rintro rfl
    simp only [fill_length]
    refine ⟨fun k hk => ?_, fun k hk => ?_, fun k hk => ?_⟩
    · rw [fill_get _ _ _ k hk, ← variance_rule]
      rfl
    · rw [fill_get _ _ _ k hk, fill_after, ← variance_rule, ← variance_rule]
      rfl
    · rw [fill_get _ _ _ k hk, fill_after, fill_after, ← variance_rule, ← variance_rule]
      rfl

/-- **C61** is false of the stream: in every model, two dense layers with the same numbers of inputs and
weights that both are, or both are not, followed by a ReLU layer, get the same weights, whatever engine and
distribution are used. -/
theorem C61_stream_refuted (rg : Random) (how : ModelInit) (pdf : Pdf) (seed dev : Nat) (ops : List Op) (n : Net)
    (hg : n.graph = (built ops).graph) (hl : n.layers.length = n.graph.layers.length)
    (i j : Nat) (a b : Dense.Layer ℝ) (hi : n.layers[i]? = some (.dense a)) (hj : n.layers[j]? = some (.dense b))
    (hi' : i ∉ n.graph.loss) (hj' : j ∉ n.graph.loss)
    (hin : a.inputSize = b.inputSize) (hw : a.weights.length = b.weights.length)
    (hr : FollowedByRelu n.graph n.layers i ↔ FollowedByRelu n.graph n.layers j) :
    ∃ n' s a' b', init rg how pdf dev seed n = .ok (n', s) ∧ n'.layers[i]? = some (.dense a') ∧
      n'.layers[j]? = some (.dense b') ∧ a'.weights = b'.weights := by
  obtain ⟨ls, h1, h2, h3⟩ := init_spec rg (sound_of_built hg hl) how pdf dev seed
  have hrule : rule n.graph n.layers how i = rule n.graph n.layers how j := by
    unfold rule
    cases how with
    | kaiming => rfl
    | xavier => rfl
    | auto =>
      dsimp only
      have := (any_relu_iff n.graph n.layers i).trans (hr.trans (any_relu_iff n.graph n.layers j).symm)
      rw [Bool.eq_iff_iff.mpr this]
  have hi2 := h3 i
  have hj2 := h3 j
  rw [if_neg hi', hi] at hi2
  rw [if_neg hj', hj] at hj2
  refine ⟨_, _, _, _, h1, hi2, hj2, ?_⟩
  dsimp only
  rw [hin, fill_congr _ hw, hrule]

/-- The hypotheses can be met: the two layers of `twoDense` get the same weights. -/
example (rg : Random) (how : ModelInit) (pdf : Pdf) (seed dev : Nat) : ∃ n' s a' b',
    init rg how pdf dev seed ⟨(built twoDense).graph,
      [.dense (dense22 [1, 2, 3, 4] [5, 6]), .dense (dense22 [0, 0, 0, 0] [0, 0])]⟩ = .ok (n', s) ∧
    n'.layers[0]? = some (.dense a') ∧ n'.layers[1]? = some (.dense b') ∧ a'.weights = b'.weights := by
  refine C61_stream_refuted rg how pdf seed dev twoDense _ rfl rfl 0 1 _ _ rfl rfl ?_ ?_ rfl rfl ?_
  · show 0 ∉ []; simp
  · show 1 ∉ []; simp
  · constructor
    · rintro ⟨j, hj, l, hl⟩
      have : j ∈ [1] := hj
      simp at this
      subst this
      cases hl
    · rintro ⟨j, hj, _⟩
      have : j ∈ [] := hj
      cases this

end Verif.Props

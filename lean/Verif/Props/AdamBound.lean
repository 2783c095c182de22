import Verif.Proofs.AdamBound
import Verif.Proofs.ShapePredict
import Verif.Props.Shape
import Verif.Props.Data

/-! C106: steps of Adam. -/

namespace Verif.Props

open Verif Verif.Spec Verif.Net Verif.Graph Verif.Opt Verif.Training

noncomputable section

/-- What is known of the state of an optimizer that began as a new one: it has counted some gradients. -/
def Counted (b1 b2 : ℝ) (s : Adam) : Prop := ∃ gs, AdamAfter b1 b2 gs s

theorem counted_init (b1 b2 : ℝ) : Counted b1 b2 Adam.init := ⟨[], rfl, rfl, rfl⟩

theorem counted_step {eta b1 b2 eps : ℝ} (s : Adam) (p g : ℝ) (h : Counted b1 b2 s) :
    Counted b1 b2 (adamStep eta b1 b2 eps s p g).1 := by
  obtain ⟨gs, h⟩ := h
  exact ⟨_, (adamStep_after eta b1 b2 eps gs s h p g).1⟩

theorem counted_moves {eta b1 b2 eps B : ℝ} (h10 : 0 ≤ b1) (h11 : b1 < 1) (h20 : 0 < b2) (h21 : b2 < 1) (he : 0 < eps)
    (hB : ∀ t, 1 ≤ t → adamLimit b1 b2 t ≤ B) (s : Adam) (p g : ℝ) (h : Counted b1 b2 s) :
    |(adamStep eta b1 b2 eps s p g).2 - p| ≤ |eta| * B := by
  obtain ⟨gs, h⟩ := h
  rw [(adamStep_after eta b1 b2 eps gs s h p g).2]
  have h1 := adamDelta_le (eta := eta) h10 h11 h20 h21 he (gs ++ [g]) (by simp)
  rw [show p - adamDelta eta b1 b2 eps (gs ++ [g]) - p = - adamDelta eta b1 b2 eps (gs ++ [g]) by ring, abs_neg]
  exact h1.trans (mul_le_mul_of_nonneg_left (hB _ (by simp)) (abs_nonneg _))

theorem layer_of_length {ls ls' : List AnyLayer} (h : ls'.length = ls.length) {i : Nat} {a : AnyLayer}
    (ha : ls[i]? = some a) : ∃ a', ls'[i]? = some a' := by
  have : i < ls'.length := by rw [h]; exact (List.getElem?_eq_some_iff.mp ha).1
  exact ⟨_, List.getElem?_eq_getElem this⟩

theorem performAll_shape {σ : Type} (opt : σ → ℝ → ℝ → σ × ℝ) (d : Data.Dataset ℝ) : ∀ (cs : List TrainCall)
    (s r : σ × Net), performAll (modelOps opt d) cs s = .ok r → r.2.layers.map shape = s.2.layers.map shape
  | [], s, r, h => by cases h; rfl
  | .reset :: cs, s, r, h =>
    (performAll_shape opt d cs (s.1, s.2.resetScore) r h).trans (shapes_of_cores (resetScore_same s.2).2)
  | .step i :: cs, s, r, h => by
    unfold performAll at h
    obtain ⟨q, hq, h⟩ := Exec.bind_eq_ok h
    obtain ⟨x, _, hq⟩ := Exec.bind_eq_ok hq
    obtain ⟨t, _, hq⟩ := Exec.bind_eq_ok hq
    obtain ⟨m, hm, hq⟩ := Exec.bind_eq_ok hq
    cases hq
    unfold raise at hm
    obtain ⟨p, hp, hm⟩ := Exec.bind_eq_ok hm
    split at hm
    · cases hm
      exact (performAll_shape opt d cs (s.1, p.1) r h).trans (shapes_of_cores (step_same (e := p.2) hp).2)
    · cases hm
  | .train :: cs, s, r, h => by
    unfold performAll at h
    obtain ⟨q, hq, h⟩ := Exec.bind_eq_ok h
    obtain ⟨u, _, hq⟩ := Exec.bind_eq_ok hq
    cases hq
    exact (performAll_shape opt d cs _ r h).trans (shape_trainLayers opt s.2.layers s.1)

theorem after_all (eta b1 b2 eps : ℝ) (gs ps : List ℝ) (hl : ps.length = gs.length) :
    AdamAfter b1 b2 gs ((gs.zip ps).foldl (fun s e => (adamStep eta b1 b2 eps s e.2 e.1).1) Adam.init) := by
  have key : ∀ (gs ps : List ℝ), ps.length = gs.length → ∀ (hs : List ℝ) (s0 : Adam), AdamAfter b1 b2 hs s0 →
      AdamAfter b1 b2 (hs ++ gs) ((gs.zip ps).foldl (fun s e => (adamStep eta b1 b2 eps s e.2 e.1).1) s0) := by
    intro gs
    induction gs with
    | nil => intro ps _ hs s0 h0; simpa using h0
    | cons g gs ih =>
      intro ps hps hs s0 h0
      match ps, hps with
      | q :: ps, hps =>
        have := ih ps (by simpa using hps) (hs ++ [g]) _ (adamStep_after eta b1 b2 eps hs s0 h0 q g).1
        rw [List.append_assoc] at this
        exact this
  simpa using key gs ps hl [] Adam.init ⟨rfl, rfl, rfl⟩

/-- **C106**, one parameter: the step that Adam makes when it has seen the gradients `gs`, the last of which is that of the
parameter, is at most the learning rate times a number that depends on the number of gradients seen and on the constants
of Adam only, whatever the gradients are. -/
theorem C106_step (eta b1 b2 eps : ℝ) (h10 : 0 ≤ b1) (h11 : b1 < 1) (h20 : 0 < b2) (h21 : b2 < 1) (he : 0 < eps)
    (gs : List ℝ) (ps : List ℝ) (hl : ps.length = gs.length) (p g : ℝ) :
    let s := (gs.zip ps).foldl (fun s e => (adamStep eta b1 b2 eps s e.2 e.1).1) Adam.init
    |(adamStep eta b1 b2 eps s p g).2 - p| ≤ |eta| * adamLimit b1 b2 (gs.length + 1) := by
  intro s
  have hs : AdamAfter b1 b2 gs s := after_all eta b1 b2 eps gs ps hl
  rw [(adamStep_after eta b1 b2 eps gs s hs p g).2]
  have h1 := adamDelta_le (eta := eta) h10 h11 h20 h21 he (gs ++ [g]) (by simp)
  rw [show p - adamDelta eta b1 b2 eps (gs ++ [g]) - p = - adamDelta eta b1 b2 eps (gs ++ [g]) by ring, abs_neg]
  simpa using h1

/-- **C106**: with the default constants, a history of calls moves no parameter of a model by more than 7.28 times the
learning rate for each call of `train` in it, whatever the inputs, the targets and the gradients are. -/
theorem C106_history (net : Net) (n : Nat) (ha : Agrees net n) (rate : ℝ) (cs : List UserCall) (s' : Adam) (net' : Net)
    (h : serve (adamStep rate (9 / 10) (999 / 1000) (1 / 10 ^ 8)) cs (Adam.init, net) = .ok (s', net'))
    (i : Nat) (a : AnyLayer) (h1 : net.layers[i]? = some a) :
    ∃ a', net'.layers[i]? = some a' ∧ Within (trainings cs * (|rate| * (728 / 100))) a a' := by
  obtain ⟨a', h2⟩ := layer_of_length (by simpa using congrArg List.length (serve_shape _ cs _ _ _ h)) h1
  refine ⟨a', h2, ?_⟩
  have hm := (serve_moves (Inv := Counted (9 / 10) (999 / 1000)) (B := |rate| * (728 / 100)) counted_step
    (counted_moves (by norm_num) (by norm_num) (by norm_num) (by norm_num) (by norm_num) default_limit) cs 0 _ _ _
    (counted_init _ _) (moved_self ha) h).2 i a' h2
  rw [zero_add] at hm
  exact hm.within h1

/-- **C106** for training runs: after a run of `epochs` epochs no parameter has moved by more than 7.28 times the learning
rate for each batch of each epoch. -/
theorem C106_fit (net : Net) (n : Nat) (ha : Agrees net n) (rate : ℝ) (d : Data.Dataset ℝ) (b epochs fuel : Nat)
    (hb : 1 ≤ b) (hf : batchCount d.size b ≤ fuel) (net' : Net)
    (h : Nn.train .adam rate d fuel epochs b net = some (.ok net'))
    (i : Nat) (a : AnyLayer) (h1 : net.layers[i]? = some a) :
    ∃ a', net'.layers[i]? = some a' ∧ Within ((epochs * batchCount d.size b : Nat) * (|rate| * (728 / 100))) a a' := by
  unfold Nn.train at h
  dsimp only at h
  rw [C37_fit _ d b epochs fuel hb hf] at h
  simp only [Option.map_some, Option.some.injEq] at h
  obtain ⟨r, hr, h⟩ := Exec.bind_eq_ok h
  cases h
  obtain ⟨a', h2⟩ := layer_of_length (by simpa using congrArg List.length (performAll_shape _ d _ _ _ hr)) h1
  refine ⟨a', h2, ?_⟩
  have hm := (performAll_moves (Inv := Counted (9 / 10) (999 / 1000)) (B := |rate| * (728 / 100)) counted_step
    (counted_moves (by norm_num) (by norm_num) (by norm_num) (by norm_num) (by norm_num) default_limit) d _ 0 _ _
    (counted_init _ _) (moved_self ha) hr).2 i a' h2
  rw [zero_add, trainsOf_run] at hm
  exact hm.within h1

/-- The bound of `C106_step` cannot be improved: for every step number and every smaller multiple of the learning rate there
are gradients with which Adam makes a larger step. -/
theorem C106_sharp (eta b1 b2 eps : ℝ) (heta : 0 < eta) (h10 : 0 ≤ b1) (h11 : b1 < 1) (h20 : 0 < b2) (h21 : b2 < 1)
    (he : 0 < eps) (t : Nat) (c : ℝ) (hc : c < adamLimit b1 b2 (t + 1)) :
    ∃ (gs : List ℝ) (g : ℝ), gs.length = t ∧ ∀ (ps : List ℝ), ps.length = t → ∀ p : ℝ,
      let s := (gs.zip ps).foldl (fun s e => (adamStep eta b1 b2 eps s e.2 e.1).1) Adam.init
      eta * c ≤ p - (adamStep eta b1 b2 eps s p g).2 := by
  obtain ⟨l, h1, h2⟩ := adamDelta_sharp h10 h11 h20 h21 he eta heta (t + 1) (by omega) c hc
  have hne : l ≠ [] := fun h => by rw [h] at h1; cases h1
  obtain ⟨gs, g, rfl⟩ : ∃ gs g, l = gs ++ [g] := ⟨l.dropLast, l.getLast hne, (List.dropLast_append_getLast hne).symm⟩
  have hlen : gs.length = t := by simpa using h1
  refine ⟨gs, g, hlen, fun ps hps p => ?_⟩
  intro s
  rw [(adamStep_after eta b1 b2 eps gs s (after_all eta b1 b2 eps gs ps (hps.trans hlen.symm)) p g).2]
  linarith

/-- The hypotheses of the theorems: the model with branches of C89, which has Adam train it. -/
example (w b : List ℝ) (hw : w.length = 6) (hb : b.length = 3) :
    Agrees (meshNet w b) 2 ∧
    (∃ r, serve (adamStep (1 / 100) (9 / 10) (999 / 1000) (1 / 10 ^ 8))
      [.step [1, 2] [0, 1, 0], .train, .step [3, -1] [1, 0, 0], .train] (Adam.init, meshNet w b) = .ok r) ∧
    trainings [.step [1, 2] [0, 1, 0], .train, .step [3, -1] [1, 0, 0], .train] = 2 ∧
    (AnyLayer.kind <$> (meshNet w b).layers[0]?) = some (.dense 2 3) := by
  refine ⟨mesh_agrees w b hw hb, ?_, rfl, rfl⟩
  refine mesh_serves w b hw hb _ _ _ _ ?_
  intro c hc
  simp only [List.mem_cons, List.not_mem_nil, or_false] at hc
  rcases hc with rfl | rfl | rfl | rfl
  · exact mesh_suitable w b _ _ _ _ _ (.inr (by norm_num))
  · trivial
  · exact mesh_suitable w b _ _ _ _ _ (.inl (by norm_num))
  · trivial

/-- And the model of that example is trained for three epochs on two samples. -/
example (w b : List ℝ) (hw : w.length = 6) (hb : b.length = 3) (x : Nat → ℝ) :
    ∃ net', Nn.train .adam (1 / 100) (Data.ofVec [x 0, x 1, 1, 0, 0, x 2, x 3, 0, 1, 0] 5 1 {2, 3, 4}) 2 3 1
      (meshNet w b) = some (.ok net') := by
  let d : Data.Dataset ℝ := Data.ofVec [x 0, x 1, 1, 0, 0, x 2, x 3, 0, 1, 0] 5 1 {2, 3, 4}
  have hsz : d.size = 2 := by simp [d, Data.ofVec, Data.Dataset.size]
  have hd : ∀ i, i < d.size → ∃ y t, d.input i = .ok y ∧ d.label i = .ok t ∧ Suitable (meshNet w b) 2 (.step y t) := by
    intro i hi
    have h0 : Spec.Consistent d := Data.consistent_ofVec _ _ _ _
    have hf : d.featureSize = 5 := by simp [d, Data.ofVec]
    have hl : d.labelsIdx = {2, 3, 4} := by
      show Data.keepLabels d.featureSize _ = _
      rw [hf]
      decide
    have hin : d.inputIdx = {0, 1} := by
      show Data.inputsOf d.featureSize d.labelsIdx = _
      rw [hf, hl]
      decide
    rw [C43_input h0, C43_label h0, if_pos hi, if_pos hi, hl, hin]
    have hdat : d.data = [x 0, x 1, 1, 0, 0, x 2, x 3, 0, 1, 0] := by
      simp [d, Data.ofVec, Data.resize]
    match i, hi with
    | 0, _ =>
      exact ⟨[x 0, x 1], [1, 0, 0], by simp [row, hf, hdat, pick, List.zipIdx], by simp [row, hf, hdat, pick, List.zipIdx],
        mesh_suitable w b _ _ _ _ _ (.inl (by norm_num))⟩
    | 1, _ =>
      exact ⟨[x 2, x 3], [0, 1, 0], by simp [row, hf, hdat, pick, List.zipIdx], by simp [row, hf, hdat, pick, List.zipIdx],
        mesh_suitable w b _ _ _ _ _ (.inr (by norm_num))⟩
    | i + 2, hi => rw [hsz] at hi; omega
  have hops : ∀ op ∈ mesh, Joins op := by simp [mesh, Joins]
  obtain ⟨r, h1, r', h2⟩ := C89_fit_partial mesh hops (meshNet w b) rfl 2 (mesh_agrees w b hw hb)
    (C33_lists_partial [.addLayer, .addLayer, .addLayer, .addLayer, .addLoss, .addLoss,
      .lossEdge ⟨2, false⟩ ⟨4, true⟩, .lossEdge ⟨3, false⟩ ⟨5, true⟩, .edge ⟨0, false⟩ ⟨1, false⟩,
      .edge ⟨0, false⟩ ⟨2, false⟩, .edge ⟨1, false⟩ ⟨3, false⟩, .edge ⟨0, false⟩ ⟨3, false⟩] []
      ⟨2, false⟩ ⟨3, false⟩ (by decide) (by decide) (by simp)).2
    (acyclic_of_lt (by decide)) (by
      intro i hi
      change i ∈ (built mesh).graph.loss at hi
      show ∃ x, trainArc (built mesh).graph x i
      rw [mesh_graph.1] at hi
      simp only [List.mem_cons, List.not_mem_nil, or_false] at hi
      rcases hi with rfl | rfl
      · exact ⟨2, by decide⟩
      · exact ⟨3, by decide⟩)
    ⟨0, by show 0 < (built mesh).graph.layers.length; decide, by show 0 ∉ (built mesh).graph.loss; decide⟩
    (adamStep (1 / 100) (9 / 10) (999 / 1000) (1 / 10 ^ 8)) Adam.init [] (by simp) d hd 2 3 1 (by omega)
    (by rw [hsz]; decide)
  cases h1
  refine ⟨r'.2, ?_⟩
  unfold Nn.train
  dsimp only
  rw [h2]
  rfl

end

end Verif.Props

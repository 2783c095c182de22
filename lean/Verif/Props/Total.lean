import Verif.Proofs.TotalFnn
import Verif.Props.Nn
import Verif.Props.Refit

/-! C77: fitting a network on well-formed data completes. -/

namespace Verif.Props

open Verif Verif.Net Verif.Graph Verif.Spec

noncomputable section

/-- **C77**: whatever descriptors a network is built of (windows fit, no softmax of nothing), and whatever was done
with it since - any `predict`, `evaluate` and `fit` calls, on any data, with any options - `fit` on data whose rows
have an input of the declared size and a label that the loss can score returns normally: it throws no exception, has
no undefined behaviour and ends after a bounded number of steps.  This holds for every optimizer, initialisation,
learning rate, seed, number of epochs and positive batch size. -/
theorem C77_fit_returns (ds : List Descriptor) (f : Fnn) (outcomes : List (Option String))
    (h : Fnn.empty.addAll ds = .ok (f, outcomes)) (hne : accepted ds outcomes ≠ [])
    (hr : ∀ a ∈ f.layers, (∀ mx raw l, a ≠ .dropout mx raw l) → Regular a) (lf : LossFn) (g : Fnn)
    (hg : UsedBy lf f g) (rg : Init.Random) (init : Init.ModelInit) (o : Nn.OptimizerType) (rate : ℝ)
    (device seed : Nat) (d : Data.Dataset ℝ) (z : AnyLayer) (hz : f.layers.getLast? = some z)
    (hd : Suits lf (declaredInput ds) z.outputSize d) (fuel epochs batch : Nat) (hb : 1 ≤ batch)
    (hf : batchCount d.size batch ≤ fuel) :
    ∃ g', Nn.fit rg lf init o rate device seed d fuel epochs batch g = some (.ok g') :=
  Net.fit_total h hne hr hg rg init o rate device seed hz hd hb hf

/-- Data sets with the right numbers of input and label columns suit a network trained with the mean squared
error. -/
theorem suits_mse {d : Data.Dataset ℝ} (hd : Consistent d) {n m : Nat} (hn : d.inputIdx.card = n)
    (hm : d.labelsIdx.card = m) (hpos : 0 < m) : Suits .mse n m d := by
  intro i hi
  have e1 : (sampleInput d i).length = n := by
    unfold sampleInput
    rw [Data.pick_row hd hi fun j hj => ((hd.inputs j).mp hj).1, List.length_map, Data.iter_length, hn]
  have e2 : (sampleLabel d i).length = m := by
    unfold sampleLabel
    rw [Data.pick_row hd hi hd.labels, List.length_map, Data.iter_length, hm]
  exact ⟨_, _, Data.input_ok hd hi, Data.label_ok hd hi, e1, e2, hpos, fun e => by cases e⟩

/-- A network with dropout: two inputs, one unit, which is dropped with probability `p`, and a sigmoid. -/
def dropNet (p : ℝ) (mx : Nat) (raw : Nat → Nat) : List Descriptor :=
  [⟨.input [⟨2, 1, 1⟩], .none⟩, ⟨.dense [⟨1, 1, 1⟩], .relu⟩, ⟨.dropout p mx raw, .sigmoid⟩]

theorem drop_built (p : ℝ) (mx : Nat) (raw : Nat → Nat) :
    ∃ f, Fnn.empty.addAll (dropNet p mx raw) = .ok (f, [none, none, none]) ∧
      (∀ a ∈ f.layers, (∀ mx raw l, a ≠ .dropout mx raw l) → Regular a) ∧
      ∃ z, f.layers.getLast? = some z ∧ z.outputSize = 1 := by
  refine ⟨_, rfl, ?_, _, rfl, rfl⟩
  intro a ha hd
  fin_cases ha
  · trivial
  · trivial
  · exact absurd rfl (hd _ _ _)
  · trivial

/-- The hypotheses are met by a network with dropout, also after it was fitted. -/
example (rg : Init.Random) (p : ℝ) (mx : Nat) (raw : Nat → Nat) :
    ∃ f, Fnn.empty.addAll (dropNet p mx raw) = .ok (f, [none, none, none]) ∧
    ∃ g g', Nn.fit rg .mse .xavier .adam (1 / 10) 3 7 points 4 100 1 f = some (.ok g) ∧
      Nn.fit rg .mse .kaiming .gradientDescent (1 / 100) 5 0 points 2 10 3 g = some (.ok g') := by
  obtain ⟨f, h1, h2, z, h3, h4⟩ := drop_built p mx raw
  have hs : Suits .mse (declaredInput (dropNet p mx raw)) z.outputSize points := by
    rw [h4]
    exact suits_mse (Data.consistent_ofVec _ _ _ _) rfl rfl (by decide)
  obtain ⟨g, e⟩ := C77_fit_returns (dropNet p mx raw) f _ h1 (by intro e; cases e) h2 .mse f .new rg .xavier .adam (1 / 10) 3 7
    points z h3 hs 4 100 1 (by decide) (by decide)
  obtain ⟨g', e'⟩ := C77_fit_returns (dropNet p mx raw) f _ h1 (by intro e; cases e) h2 .mse g
    (.fit rg .xavier .adam (1 / 10) 3 7 points 4 100 1 .new e) rg .kaiming .gradientDescent (1 / 100) 5 0
    points z h3 hs 2 10 3 (by decide) (by decide)
  exact ⟨f, h1, g, g', e, e'⟩

/-- C76 applies to the small network: a fit after an earlier one, with other options, gives the same network as a
fit of the new one. -/
example (rg : Init.Random) : ∃ f, Fnn.empty.addAll smallNet = .ok (f, [none, none, none]) ∧
    ∃ g, Nn.fit rg .mse .xavier .adam (1 / 10) 3 7 points 4 100 1 f = some (.ok g) ∧
      ∃ g1 g2, Nn.fit rg .mse .kaiming .gradientDescent (1 / 100) 5 9 points 4 10 1 g = some (.ok g1) ∧
        Nn.fit rg .mse .kaiming .gradientDescent (1 / 100) 6 9 points 4 10 1 f = some (.ok g2) ∧
        g1.layers.map AnyLayer.params = g2.layers.map AnyLayer.params := by
  obtain ⟨f, h1, h2, _, z, h5, h6⟩ := small_built
  have hp : Consistent points := Data.consistent_ofVec _ _ _ _
  have hs : Suits .mse (declaredInput smallNet) z.outputSize points := by
    rw [h6]
    exact suits_mse hp rfl rfl (by decide)
  obtain ⟨g, e⟩ := C77_fit_returns smallNet f _ h1 (by intro e; cases e) (fun a ha _ => h2 a ha) .mse f .new rg
    .xavier .adam (1 / 10) 3 7 points z h5 hs 4 100 1 (by decide) (by decide)
  obtain ⟨g1, e1⟩ := C77_fit_returns smallNet f _ h1 (by intro e; cases e) (fun a ha _ => h2 a ha) .mse g
    (.fit rg .xavier .adam (1 / 10) 3 7 points 4 100 1 .new e) rg .kaiming .gradientDescent (1 / 100) 5 9
    points z h5 hs 4 10 1 (by decide) (by decide)
  obtain ⟨g2, e2⟩ := C77_fit_returns smallNet f _ h1 (by intro e; cases e) (fun a ha _ => h2 a ha) .mse f
    .new rg .kaiming .gradientDescent (1 / 100) 6 9 points z h5 hs 4 10 1 (by decide) (by decide)
  have key := C76_refit_partial smallNet f _ h1 (by intro e; cases e) h2 .mse 1 g f
    (.fit rg .xavier .adam (1 / 10) 3 7 points 4 100 .new e) .new rg .kaiming .gradientDescent (1 / 100) 5 6 9
    (by decide) points (by
      intro i x hi hx
      obtain ⟨x', _, a1, _, a3, _⟩ := hs i hi
      rw [a1] at hx
      cases hx
      exact a3) 4 10
  rw [e1, e2] at key
  refine ⟨f, h1, g, e, g1, g2, e1, e2, ?_⟩
  simpa [fitted] using key

end

end Verif.Props

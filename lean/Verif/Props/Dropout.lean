import Verif.Proofs.Dropout
import Mathlib.Tactic.NormNum

/-
Property C28 (dropout).

The layer draws one random number per position and training pass; the `k`-th number drawn is
`raw k / maxRand`, with `raw` any stream of integers in `0 .. maxRand`.  Position `i` of the training
pass number `t` (counting from 0) is kept iff draw `t * size + i` exceeds the drop probability.
-/

namespace Verif.Props
open Verif.Spec Verif.Drop

/-- Position `i` of training pass `t` is kept. -/
def kept (raw : Nat → Nat) (maxRand : Nat) (p : ℝ) (size t i : Nat) : Prop :=
  p < (raw (t * size + i) : ℝ) / (maxRand : ℝ)

/-- With drop probability 1 or more nothing is kept. -/
theorem C28_probability_one (raw : Nat → Nat) (maxRand : Nat) (hm : 0 < maxRand)
    (hraw : ∀ k, raw k ≤ maxRand) (p : ℝ) (hp : 1 ≤ p) (size t i : Nat) :
    ¬ kept raw maxRand p size t i := by
  unfold kept
  have h1 : (0:ℝ) < maxRand := by exact_mod_cast hm
  have h2 : (raw (t * size + i) : ℝ) ≤ maxRand := by exact_mod_cast hraw _
  have : (raw (t * size + i) : ℝ) / maxRand ≤ 1 := (div_le_one h1).mpr h2
  linarith

/-- With a drop probability below 0 everything is kept; with probability 0 everything except exact
zeros of the generator. -/
theorem C28_probability_zero (raw : Nat → Nat) (maxRand : Nat) (hm : 0 < maxRand) (size t i : Nat) :
    kept raw maxRand 0 size t i ↔ raw (t * size + i) ≠ 0 := by
  unfold kept
  have h1 : (0:ℝ) < maxRand := by exact_mod_cast hm
  rw [lt_div_iff₀ h1, zero_mul]
  constructor
  · intro h h0; rw [h0] at h; simp at h
  · intro h; exact_mod_cast Nat.pos_of_ne_zero h

open Classical in
/-- For every history of inference passes, training passes and backward passes on a new layer that
ends with a training pass followed by no other training pass: that pass returned each input times
`1 / (1 - p)` at the kept positions and 0 at the others, and a backward pass afterwards returns each
gradient times `1 / (1 - p)` at exactly the same positions and 0 at the others. -/
theorem C28_dropout (size : Nat) (p : ℝ) (raw : Nat → Nat) (maxRand : Nat) (hm : 0 < maxRand)
    (hraw : ∀ k, raw k ≤ maxRand) (before after : List Op) (x : List ℝ)
    (hx : x.length = size) (hb : ∀ op ∈ before, op.argLength = size)
    (ha : ∀ op ∈ after, op.argLength = size ∧ op.isTraining = false) :
    let t := before.countP Op.isTraining
    ∃ l1 l2 l3, (Layer.new size p).run maxRand raw before = .ok l1 ∧
      l1.trainingForward maxRand raw x = .ok (l2, tab size fun i =>
        if kept raw maxRand p size t i then vec x i * (1 / (1 - p)) else 0) ∧
      l2.run maxRand raw after = .ok l3 ∧
      ∀ g : List ℝ, g.length = size → ∃ l4, l3.backward g = .ok (l4, tab size fun i =>
        if kept raw maxRand p size t i then vec g i * (1 / (1 - p)) else 0) := by
  intro t
  obtain ⟨l1, a1, a2, a3, a4, a5, _⟩ := run_good maxRand raw before (Layer.new size p)
    (new_good size p) hb
  have hs1 : l1.size = size := a3
  have hp1 : l1.p = p := a4
  have hd1 : l1.drawn = t * size := by
    rw [a5]; show 0 + size * t = t * size; ring
  obtain ⟨l2, b1, b2, b3, b4, b5, b6⟩ := training_eq maxRand raw l1 a2 x (by omega)
  obtain ⟨l3, c1, c2, c3, c4, c5, c6⟩ := run_good maxRand raw after l2 b2
    (fun op h => by rw [(ha op h).1, b3, hs1])
  have hm2 := c6 (fun op h => (ha op h).2)
  have factor : ∀ i (y : ℝ), kept raw maxRand p size t i → y * scaleOf p = y * (1 / (1 - p)) := by
    intro i y hk
    have : p ≠ 1 := by
      rintro rfl
      exact C28_probability_one raw maxRand hm hraw 1 (le_refl _) size t i hk
    unfold scaleOf
    rw [if_neg this]
  refine ⟨l1, l2, l3, a1, ?_, c1, ?_⟩
  · rw [b1, hs1, hp1, hd1]
    congr 2
    apply tab_congr
    intro i hi
    by_cases hk : kept raw maxRand p size t i
    · rw [if_pos hk, if_pos (show (raw (t * size + i) : ℝ) / maxRand > p from hk), a2.scale, hp1, factor i _ hk]
    · rw [if_neg hk, if_neg (show ¬ (raw (t * size + i) : ℝ) / maxRand > p from hk)]
  · intro g hg
    obtain ⟨l4, d1, _⟩ := backward_eq l3 c2 g (by rw [c3, b3, hs1]; exact hg)
    refine ⟨l4, ?_⟩
    rw [d1, c3, b3, hs1]
    congr 2
    apply tab_congr
    intro i hi
    have hmem := b6 i (by omega)
    rw [hm2]
    rw [hd1, hp1] at hmem
    by_cases hk : kept raw maxRand p size t i
    · rw [if_neg (fun h => (hmem.mp h) hk), if_pos hk, c2.scale, c4, b4, hp1, factor i _ hk]
    · rw [if_pos (hmem.mpr hk), if_neg hk]

/-- Inference is the identity and changes nothing, in every state. -/
theorem C28_inference (l : Layer) (x : List ℝ) : l.forward x = .ok (l, x) := rfl

/-- `input_shape(n)` after a training pass keeps the old mask: a backward pass on a layer that was made
smaller writes outside of the buffer. -/
theorem C28_shrink_keeps_mask :
    ∃ (l : Layer) (y : List ℝ),
      (Layer.new 2 1).trainingForward 1 (fun _ => 0) [1, 1] = .ok (l, y) ∧
      (l.setSize 1).backward [1] = .ub := by
  obtain ⟨l, h1, h2, h3, h4, h5, h6⟩ := training_eq 1 (fun _ => 0) (Layer.new 2 1) (new_good 2 1)
    [1, 1] rfl
  refine ⟨_, _, h1, ?_⟩
  have hs : l.size = 2 := h3
  have hmem : 1 ∈ l.mask := (h6 1 (by show 1 < 2; omega)).mpr (by
    show ¬ ((((0 : ℕ) : ℝ)) / ((1 : ℕ) : ℝ) > 1); norm_num)
  have hlen : (l.setSize 1).inputGrad.length = 1 := by
    have := h2.inputGrad
    simp [Layer.setSize, Drop.resize]
    omega
  unfold Layer.backward
  rw [arrScale_eq (n := (l.setSize 1).size) hlen rfl, Exec.bind_ok]
  have hub : ∀ (mask : List Nat) (g : List ℝ), g.length = 1 → 1 ∈ mask → clearAt mask g = .ub := by
    intro mask
    induction mask with
    | nil => intro g _ h; simp at h
    | cons i is ih =>
      intro g hg h
      unfold clearAt wr
      by_cases hi : i < g.length
      · rw [if_pos hi, Exec.bind_ok]
        have : 1 ∈ is := by
          rcases List.mem_cons.mp h with h | h
          · omega
          · exact h
        exact ih _ (by simp [hg]) this
      · rw [if_neg hi]; rfl
  rw [hub _ _ (by show (tab 1 _).length = 1; simp) (by exact hmem)]
  rfl

open Classical in
/-- `input_shape(n)` between two training passes: after any history with vectors of the old size, a training pass with
a vector of the new size and a backward pass after it drop and rescale the same positions, as for a new layer of this
size whose first draw is the next number of the generator. -/
theorem C28_resized (size n : Nat) (p : ℝ) (raw : Nat → Nat) (maxRand : Nat) (hm : 0 < maxRand)
    (hraw : ∀ k, raw k ≤ maxRand) (before after : List Op) (x : List ℝ) (hx : x.length = n)
    (hb : ∀ op ∈ before, op.argLength = size)
    (ha : ∀ op ∈ after, op.argLength = n ∧ op.isTraining = false) :
    let first := before.countP Op.isTraining * size
    ∃ l1 l2 l3, (Layer.new size p).run maxRand raw before = .ok l1 ∧
      (l1.setSize n).trainingForward maxRand raw x = .ok (l2, tab n fun i =>
        if p < (raw (first + i) : ℝ) / maxRand then vec x i * (1 / (1 - p)) else 0) ∧
      l2.run maxRand raw after = .ok l3 ∧
      ∀ g : List ℝ, g.length = n → ∃ l4, l3.backward g = .ok (l4, tab n fun i =>
        if p < (raw (first + i) : ℝ) / maxRand then vec g i * (1 / (1 - p)) else 0) := by
  intro first
  obtain ⟨l1, a1, a2, a3, a4, a5, _⟩ := run_good maxRand raw before (Layer.new size p)
    (new_good size p) hb
  have hp1 : l1.p = p := a4
  have hd1 : l1.drawn = first := by
    rw [a5]; show 0 + size * _ = _ * size; ring
  have hlen : ∀ v : List ℝ, (Drop.resize v n).length = n := by
    intro v
    simp only [Drop.resize, List.length_append, List.length_take, List.length_replicate]
    omega
  have hgood : Good { l1.setSize n with mask := [] } :=
    ⟨hlen _, hlen _, a2.scale, by intro i hi; cases hi⟩
  obtain ⟨l2, b1, b2, b3, b4, b5, b6⟩ := training_eq maxRand raw _ hgood x hx
  have hs2 : l2.size = n := b3
  have hp2 : l2.p = p := b4.trans hp1
  obtain ⟨l3, c1, c2, c3, c4, c5, c6⟩ := run_good maxRand raw after l2 b2
    (fun op h => by rw [(ha op h).1, hs2])
  have hm2 := c6 (fun op h => (ha op h).2)
  have factor : ∀ i (y : ℝ), p < (raw (first + i) : ℝ) / maxRand → y * scaleOf p = y * (1 / (1 - p)) := by
    intro i y hk
    have : p ≠ 1 := by
      rintro rfl
      have h1 : (0:ℝ) < maxRand := by exact_mod_cast hm
      have h2 : (raw (first + i) : ℝ) ≤ maxRand := by exact_mod_cast hraw _
      have := (div_le_one h1).mpr h2
      linarith
    unfold scaleOf
    rw [if_neg this]
  refine ⟨l1, l2, l3, a1, ?_, c1, ?_⟩
  · have e : (l1.setSize n).trainingForward maxRand raw x
        = ({ l1.setSize n with mask := [] } : Layer).trainingForward maxRand raw x := rfl
    rw [e, b1]
    congr 2
    apply tab_congr
    intro i hi
    show (if (raw (l1.drawn + i) : ℝ) / maxRand > l1.p then vec x i * l1.scale else 0) = _
    rw [hd1, hp1, a2.scale, hp1]
    by_cases hk : p < (raw (first + i) : ℝ) / maxRand
    · rw [if_pos hk, if_pos hk, factor i _ hk]
    · rw [if_neg hk, if_neg hk]
  · intro g hg
    obtain ⟨l4, d1, _⟩ := backward_eq l3 c2 g (by rw [c3, hs2]; exact hg)
    refine ⟨l4, ?_⟩
    rw [d1, c3, hs2]
    congr 2
    apply tab_congr
    intro i hi
    have hmem : i ∈ l2.mask ↔ ¬ ((raw (l1.drawn + i) : ℝ) / maxRand > l1.p) := b6 i hi
    rw [hm2]
    rw [hd1, hp1] at hmem
    by_cases hk : p < (raw (first + i) : ℝ) / maxRand
    · rw [if_neg (fun h => (hmem.mp h) hk), if_pos hk, c2.scale, c4, hp2, factor i _ hk]
    · rw [if_pos (hmem.mpr hk), if_neg hk]

/-- A history with two training passes, an inference pass and a backward pass meets the hypotheses
of `C28_dropout`. -/
example : let before := [Op.trainingForward [1, 2], Op.forward [3, 4]]
    let after := [Op.forward [5, 6], Op.backward [1, 1]]
    (∀ op ∈ before, op.argLength = 2) ∧
      (∀ op ∈ after, op.argLength = 2 ∧ op.isTraining = false) ∧
      before.countP Op.isTraining = 1 := by
  simp [Op.argLength, Op.isTraining, List.countP_cons]

end Verif.Props

import Verif.Proofs.FloatRun
import Verif.Spec.Activation
import Mathlib.Topology.Algebra.Order.Field
import Mathlib.Topology.Order.Lattice
import Mathlib.Analysis.SpecialFunctions.Exp
import Mathlib.Analysis.SpecialFunctions.Trigonometric.DerivHyp
import Mathlib.Analysis.Calculus.Deriv.Basic

/-
A calculus of limits for floating-point computations: along formats that become exact, the computed values
tend to the exact ones.
-/

namespace Verif.Float
open Spec Slide Filter Topology

variable {ι : Type} {F : Filter ι} {A : ι → Arith} {L : ∀ i, Lib (A i)}

/-- Along `F` the formats and the libraries become exact and the overflow threshold is lifted. -/
structure Fine (F : Filter ι) (A : ι → Arith) (L : ∀ i, Lib (A i)) : Prop where
  u : Tendsto (fun i => (A i).u) F (𝓝 0)
  e : Tendsto (fun i => (A i).e) F (𝓝 0)
  v : Tendsto (fun i => (L i).v) F (𝓝 0)
  big : Tendsto (fun i => (A i).big) F atTop

/-- The computed numbers are finite from some point on and tend to `a`. -/
def Near (F : Filter ι) (X : ∀ i, Fl (A i)) (a : ℝ) : Prop :=
  ∃ s : ι → ℝ, (∀ᶠ i in F, X i = .fin (s i)) ∧ Tendsto s F (𝓝 a)

theorem Near.congr {X Y : ∀ i, Fl (A i)} {a : ℝ} (h : Near F X a) (e : ∀ᶠ i in F, Y i = X i) : Near F Y a := by
  obtain ⟨s, h1, h2⟩ := h
  exact ⟨s, by filter_upwards [h1, e] with i h1 e; rw [e, h1], h2⟩

theorem near_const (a : ℝ) : Near F (fun i => (.fin a : Fl (A i))) a :=
  ⟨fun _ => a, Eventually.of_forall fun _ => rfl, tendsto_const_nhds⟩

theorem near_zero : Near F (fun i => (0 : Fl (A i))) 0 := near_const 0
theorem near_one : Near F (fun i => (1 : Fl (A i))) 1 := near_const 1

theorem lt_big (hF : Fine F A L) {s : ι → ℝ} {a : ℝ} (hs : Tendsto s F (𝓝 a)) :
    ∀ᶠ i in F, |s i| < (A i).big := by
  have h1 : ∀ᶠ i in F, |s i| < |a| + 1 :=
    (hs.abs).eventually (gt_mem_nhds (by linarith))
  filter_upwards [h1, hF.big.eventually_ge_atTop (|a| + 1)] with i h1 h2
  linarith

theorem rnd_tendsto (hF : Fine F A L) {s : ι → ℝ} {a : ℝ} (hs : Tendsto s F (𝓝 a)) :
    Tendsto (fun i => (A i).rnd (s i)) F (𝓝 a) := by
  have hb : Tendsto (fun i => (A i).u * |s i| + (A i).e) F (𝓝 0) := by
    have := (hF.u.mul hs.abs).add hF.e
    simpa using this
  have h0 : Tendsto (fun i => (A i).rnd (s i) - s i) F (𝓝 0) :=
    squeeze_zero_norm (fun i => (A i).err (s i)) hb
  have := h0.add hs
  simpa using this

theorem near_round (hF : Fine F A L) {s : ι → ℝ} {a : ℝ} (hs : Tendsto s F (𝓝 a)) :
    Near F (fun i => Fl.round (A i) (s i)) a := by
  have h := rnd_tendsto hF hs
  refine ⟨_, ?_, h⟩
  filter_upwards [lt_big hF h] with i hi
  unfold Fl.round
  rw [if_pos hi]

theorem near_add (hF : Fine F A L) {X Y : ∀ i, Fl (A i)} {a b : ℝ} (hX : Near F X a) (hY : Near F Y b) :
    Near F (fun i => X i + Y i) (a + b) := by
  obtain ⟨s, h1, h2⟩ := hX
  obtain ⟨t, h3, h4⟩ := hY
  refine (near_round hF (h2.add h4)).congr ?_
  filter_upwards [h1, h3] with i h1 h3
  rw [h1, h3, fl_add]

theorem near_sub (hF : Fine F A L) {X Y : ∀ i, Fl (A i)} {a b : ℝ} (hX : Near F X a) (hY : Near F Y b) :
    Near F (fun i => X i - Y i) (a - b) := by
  obtain ⟨s, h1, h2⟩ := hX
  obtain ⟨t, h3, h4⟩ := hY
  refine (near_round hF (h2.sub h4)).congr ?_
  filter_upwards [h1, h3] with i h1 h3
  rw [h1, h3, fl_sub]

theorem near_mul (hF : Fine F A L) {X Y : ∀ i, Fl (A i)} {a b : ℝ} (hX : Near F X a) (hY : Near F Y b) :
    Near F (fun i => X i * Y i) (a * b) := by
  obtain ⟨s, h1, h2⟩ := hX
  obtain ⟨t, h3, h4⟩ := hY
  refine (near_round hF (h2.mul h4)).congr ?_
  filter_upwards [h1, h3] with i h1 h3
  rw [h1, h3, fl_mul]

theorem near_div (hF : Fine F A L) {X Y : ∀ i, Fl (A i)} {a b : ℝ} (hX : Near F X a) (hY : Near F Y b)
    (hb : b ≠ 0) : Near F (fun i => X i / Y i) (a / b) := by
  obtain ⟨s, h1, h2⟩ := hX
  obtain ⟨t, h3, h4⟩ := hY
  refine (near_round hF (h2.div h4 hb)).congr ?_
  filter_upwards [h1, h3, h4.eventually_ne hb] with i h1 h3 h5
  rw [h1, h3, fl_div _ _ h5]
  rfl

theorem near_neg {X : ∀ i, Fl (A i)} {a : ℝ} (hX : Near F X a) : Near F (fun i => -X i) (-a) := by
  obtain ⟨s, h1, h2⟩ := hX
  refine ⟨fun i => -s i, ?_, h2.neg⟩
  filter_upwards [h1] with i h1
  rw [h1, fl_neg]

theorem near_nat (hF : Fine F A L) (n : Nat) : Near F (fun i => ((n : Nat) : Fl (A i))) n :=
  near_round hF tendsto_const_nhds

theorem near_exp (hF : Fine F A L) {X : ∀ i, Fl (A i)} {a : ℝ} (hX : Near F X a) :
    Near F (fun i => (L i).expF (X i)) (Real.exp a) := by
  obtain ⟨s, h1, h2⟩ := hX
  have he : Tendsto (fun i => Real.exp (s i)) F (𝓝 (Real.exp a)) := (Real.continuous_exp.tendsto a).comp h2
  have hb : Tendsto (fun i => (L i).v * Real.exp (s i) + (A i).e) F (𝓝 0) := by
    have := (hF.v.mul he).add hF.e
    simpa using this
  have h0 : Tendsto (fun i => (L i).exp (s i) - Real.exp (s i)) F (𝓝 0) :=
    squeeze_zero_norm (fun i => (L i).exp_err (s i)) hb
  have h3 : Tendsto (fun i => (L i).exp (s i)) F (𝓝 (Real.exp a)) := by
    have := h0.add he
    simpa using this
  refine ⟨_, ?_, h3⟩
  filter_upwards [h1, lt_big hF h3] with i h1 hi
  rw [h1]
  show (if _ then _ else _) = _
  rw [if_pos hi]

theorem near_tanh (hF : Fine F A L) {X : ∀ i, Fl (A i)} {a : ℝ} (hX : Near F X a) :
    Near F (fun i => (L i).tanhF (X i)) (Real.tanh a) := by
  obtain ⟨s, h1, h2⟩ := hX
  have ht : Tendsto (fun i => Real.tanh (s i)) F (𝓝 (Real.tanh a)) :=
    ((Act.tanh_deriv a).continuousAt.tendsto).comp h2
  have hb : Tendsto (fun i => (L i).v * |Real.tanh (s i)| + (A i).e) F (𝓝 0) := by
    have := (hF.v.mul ht.abs).add hF.e
    simpa using this
  have h0 : Tendsto (fun i => (L i).tanh (s i) - Real.tanh (s i)) F (𝓝 0) :=
    squeeze_zero_norm (fun i => (L i).tanh_err (s i)) hb
  have h3 : Tendsto (fun i => (L i).tanh (s i)) F (𝓝 (Real.tanh a)) := by
    have := h0.add ht
    simpa using this
  refine ⟨_, ?_, h3⟩
  filter_upwards [h1] with i h1
  rw [h1]
  rfl

/-- A choice between two computations with the same limit. -/
theorem near_ite {X Y : ∀ i, Fl (A i)} {a : ℝ} (P : ι → Prop) [∀ i, Decidable (P i)] (hX : Near F X a)
    (hY : Near F Y a) : Near F (fun i => if P i then X i else Y i) a := by
  obtain ⟨s, h1, h2⟩ := hX
  obtain ⟨t, h3, h4⟩ := hY
  refine ⟨fun i => if P i then s i else t i, ?_, ?_⟩
  · filter_upwards [h1, h3] with i h1 h3
    split
    · exact h1
    · exact h3
  · rw [Metric.tendsto_nhds] at *
    intro ε hε
    filter_upwards [h2 ε hε, h4 ε hε] with i h2 h4
    split
    · exact h2
    · exact h4

theorem near_relu {X : ∀ i, Fl (A i)} {a : ℝ} (hX : Near F X a) :
    Near F (fun i => reluF (X i)) (Act.relu a) := by
  obtain ⟨s, h1, h2⟩ := hX
  have e : ∀ x : ℝ, Act.relu x = max x 0 := by
    intro x
    unfold Act.relu
    split
    · next h => rw [max_eq_right h.le]
    · next h => rw [max_eq_left (not_lt.mp h)]
  refine ⟨fun i => Act.relu (s i), ?_, ?_⟩
  · filter_upwards [h1] with i h1
    rw [h1]
    unfold reluF Act.relu
    rw [fl_zero]
    by_cases h : s i < 0
    · rw [if_pos ((fl_lt _ _).mpr h), if_pos h]
    · rw [if_neg (fun h' => h ((fl_lt _ _).mp h')), if_neg h]
  · simp only [e]
    exact h2.max tendsto_const_nhds

theorem near_elu (hF : Fine F A L) {X : ∀ i, Fl (A i)} {a alpha : ℝ} (hX : Near F X a) :
    Near F (fun i => eluF (L i) (.fin alpha) (X i)) (Act.elu alpha a) := by
  have h2 : Near F (fun i => (.fin alpha : Fl (A i)) * ((L i).expF (X i) - 1)) (alpha * (Real.exp a - 1)) :=
    near_mul hF (near_const alpha) (near_sub hF (near_exp hF hX) near_one)
  have hX' := hX
  obtain ⟨s, hs, ht⟩ := hX
  rcases lt_trichotomy a 0 with ha | ha | ha
  · have e : Act.elu alpha a = alpha * (Real.exp a - 1) := by unfold Act.elu; rw [if_neg (by linarith)]
    rw [e]
    refine h2.congr ?_
    filter_upwards [hs, ht.eventually (gt_mem_nhds ha)] with i hs hi
    unfold eluF
    rw [if_neg]
    rw [hs]
    intro h
    have : (0 : ℝ) < s i := (fl_lt _ _).mp h
    linarith
  · have e : Act.elu alpha a = a := by unfold Act.elu; rw [if_neg (by linarith), ha]; simp
    have e2 : alpha * (Real.exp a - 1) = a := by rw [ha]; simp
    rw [e2] at h2
    rw [e]
    exact near_ite (fun i => 0 < X i) hX' h2
  · have e : Act.elu alpha a = a := by unfold Act.elu; rw [if_pos ha]
    rw [e]
    refine hX'.congr ?_
    filter_upwards [hs, ht.eventually (lt_mem_nhds ha)] with i hs hi
    unfold eluF
    rw [if_pos]
    rw [hs]
    exact (fl_lt _ _).mpr hi

theorem near_sigmoid (hF : Fine F A L) {X : ∀ i, Fl (A i)} {a : ℝ} (hX : Near F X a) :
    Near F (fun i => sigmoidF (L i) (X i)) (Act.sigmoid a) :=
  near_div hF near_one (near_add hF near_one (near_exp hF (near_neg hX)))
    (by have := Real.exp_pos (-a); linarith)

theorem near_ordSumIf (hF : Fine F A L) {P : Nat → Prop} [DecidablePred P] {n : Nat}
    {X : ∀ i, Fl (A i)} {a : ℝ} {T : ∀ i, Nat → Fl (A i)} {t : Nat → ℝ} (hX : Near F X a)
    (hT : ∀ j, j < n → P j → Near F (fun i => T i j) (t j)) :
    Near F (fun i => ordSumIf P (X i) n (T i)) (ordSumIf P a n t) := by
  induction n with
  | zero => exact hX
  | succ n ih =>
    have ih := ih fun j hj => hT j (by omega)
    by_cases h : P n
    · have := near_add hF ih (hT n (by omega) h)
      have e : ordSumIf P a (n + 1) t = ordSumIf P a n t + t n := by
        show (if P n then _ else _) = _
        rw [if_pos h]
      rw [e]
      refine this.congr (Eventually.of_forall fun i => ?_)
      show (if P n then _ else _) = _
      rw [if_pos h]
    · have e : ordSumIf P a (n + 1) t = ordSumIf P a n t := by
        show (if P n then _ else _) = _
        rw [if_neg h]
      rw [e]
      refine ih.congr (Eventually.of_forall fun i => ?_)
      show (if P n then _ else _) = _
      rw [if_neg h]

theorem near_ordSum (hF : Fine F A L) {n : Nat} {X : ∀ i, Fl (A i)} {a : ℝ} {T : ∀ i, Nat → Fl (A i)}
    {t : Nat → ℝ} (hX : Near F X a) (hT : ∀ j, j < n → Near F (fun i => T i j) (t j)) :
    Near F (fun i => ordSum (X i) n (T i)) (ordSum a n t) := by
  have := near_ordSumIf hF (P := fun _ => True) hX fun j hj _ => hT j hj
  rw [ordSumIf_true] at this
  exact this.congr (Eventually.of_forall fun i => (ordSumIf_true _ _ _).symm)

theorem near_runMax {n : Nat} (hn : 0 < n) {V : ∀ i, Nat → Fl (A i)} {v : Nat → ℝ}
    (hV : ∀ j, j < n → Near F (fun i => V i j) (v j)) :
    Near F (fun i => runMax (V i) n) (runMax v n) := by
  induction n with
  | zero => omega
  | succ n ih =>
    cases n with
    | zero => exact hV 0 (by omega)
    | succ n =>
      obtain ⟨s, h1, h2⟩ := ih (by omega) fun j hj => hV j (by omega)
      obtain ⟨t, h3, h4⟩ := hV (n + 1) (by omega)
      have e : ∀ x y : ℝ, (if x < y then y else x) = max x y := by
        intro x y
        split
        · next h => rw [max_eq_right h.le]
        · next h => rw [max_eq_left (not_lt.mp h)]
      refine ⟨fun i => if s i < t i then t i else s i, ?_, ?_⟩
      · filter_upwards [h1, h3] with i h1 h3
        show (if _ then _ else _) = _
        rw [h1, h3]
        by_cases h : s i < t i
        · rw [if_pos ((fl_lt _ _).mpr h), if_pos h]
        · rw [if_neg (fun h' => h ((fl_lt _ _).mp h')), if_neg h]
      · show Tendsto _ _ (𝓝 (if _ then _ else _))
        simp only [e]
        exact h2.max h4

/-! ### Buffers -/

/-- The computed buffers have the right length from some point on, and each element tends to the exact one. -/
def NearL (F : Filter ι) (X : ∀ i, List (Fl (A i))) (x : List ℝ) : Prop :=
  (∀ᶠ i in F, (X i).length = x.length) ∧ ∀ j, j < x.length → Near F (fun i => vec (X i) j) (vec x j)

theorem NearL.congr {X Y : ∀ i, List (Fl (A i))} {a : List ℝ} (h : NearL F X a) (e : ∀ᶠ i in F, Y i = X i) :
    NearL F Y a := by
  refine ⟨by filter_upwards [h.1, e] with i h e; rw [e, h], fun j hj => (h.2 j hj).congr ?_⟩
  filter_upwards [e] with i e
  rw [e]

theorem nearL_tab {n : Nat} {V : ∀ i, Nat → Fl (A i)} {v : Nat → ℝ}
    (hV : ∀ j, j < n → Near F (fun i => V i j) (v j)) : NearL F (fun i => tab n (V i)) (tab n v) := by
  refine ⟨Eventually.of_forall fun i => by simp, fun j hj => ?_⟩
  have hj' : j < n := by simpa using hj
  rw [vec_tab v hj']
  refine (hV j hj').congr (Eventually.of_forall fun i => ?_)
  exact vec_tab (V i) hj'

theorem nearL_fins (x : List ℝ) : NearL F (fun i => fins (A i) x) x := by
  refine ⟨Eventually.of_forall fun i => by simp [fins], fun j _ => ?_⟩
  exact (near_const (vec x j)).congr (Eventually.of_forall fun i => vec_fins x j)

/-- The result of a call that returns. -/
def got {α : Type} : Exec (List α) → List α
  | .ok d => d
  | _ => []

/-- The stage returns along `F`, with results that tend to what exact arithmetic returns. -/
def Tracks (F : Filter ι) (R : ∀ i, Exec (List (Fl (A i)))) (r : Exec (List ℝ)) (n : Nat) : Prop :=
  ∃ y, r = .ok y ∧ y.length = n ∧ ∃ Y : ∀ i, List (Fl (A i)), (∀ᶠ i in F, R i = .ok (Y i)) ∧ NearL F Y y

theorem tracks_map (f : ∀ i, Fl (A i) → Fl (A i)) (f' : ℝ → ℝ)
    (hf : ∀ (X : ∀ i, Fl (A i)) a, Near F X a → Near F (fun i => f i (X i)) (f' a))
    {n : Nat} {X : ∀ i, List (Fl (A i))} {x : List ℝ} (hx : x.length = n) (hX : NearL F X x) :
    Tracks F (fun i => mapArrF (f i) (List.replicate n 0) (X i) n)
      (Act.mapArr f' (List.replicate n 0) x n) n := by
  refine ⟨_, Act.mapArr_eq f' (by simp) (by omega), by simp, fun i => tab n fun j => f i (vec (X i) j), ?_, ?_⟩
  · filter_upwards [hX.1] with i h
    exact mapArrF_eq (f i) (by simp) (by omega)
  · exact nearL_tab fun j hj => hf _ _ (hX.2 j (by omega))

end Verif.Float

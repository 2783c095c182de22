import Verif.Spec.AdamBound
import Verif.Spec.Optimizer
import Verif.Spec.Training
import Verif.Proofs.Shape
import Verif.Props.Optimizer
import Verif.Props.Training
import Mathlib.Algebra.Field.GeomSum
import Mathlib.Tactic.Linarith
import Mathlib.Tactic.FieldSimp
import Mathlib.Tactic.Positivity
import Mathlib.Tactic.NormNum

/-! How far Adam moves parameters. -/

namespace Verif.Opt

open Verif.Spec Verif.Props

theorem adamM_snoc (b1 : ℝ) (gs : List ℝ) (g : ℝ) : adamM b1 (gs ++ [g]) = b1 * adamM b1 gs + (1 - b1) * g := by
  simp [adamM, List.foldl_append]

theorem adamV_snoc (b2 : ℝ) (gs : List ℝ) (g : ℝ) : adamV b2 (gs ++ [g]) = b2 * adamV b2 gs + (1 - b2) * g ^ 2 := by
  simp [adamV, List.foldl_append]

theorem adamV_nonneg {b2 : ℝ} (h0 : 0 ≤ b2) (h1 : b2 < 1) (gs : List ℝ) : 0 ≤ adamV b2 gs := by
  induction gs using List.reverseRecOn with
  | nil => simp [adamV]
  | append_singleton gs g ih =>
    rw [adamV_snoc]
    have : 0 < 1 - b2 := by linarith
    positivity

/-- Cauchy and Schwarz for two numbers. -/
theorem sq_add_le {a b s P Q : ℝ} (hs : 0 ≤ s) (hP : 0 ≤ P) (hQ : 0 ≤ Q) (ha : a ^ 2 ≤ s * P) (hb : b ^ 2 ≤ Q) :
    (a + b) ^ 2 ≤ (1 + s) * (P + Q) := by
  have h1 : (2 * (a * b)) ^ 2 ≤ (s * Q + P) ^ 2 := by
    have h2 : a ^ 2 * b ^ 2 ≤ s * P * Q := mul_le_mul ha hb (sq_nonneg _) (by positivity)
    nlinarith [sq_nonneg (s * Q - P)]
  have h3 : 2 * (a * b) ≤ s * Q + P := by
    have h4 : |2 * (a * b)| ≤ |s * Q + P| := sq_le_sq.mp h1
    rw [abs_of_nonneg (show 0 ≤ s * Q + P by positivity)] at h4
    exact (le_abs_self _).trans h4
  nlinarith

theorem adamM_sq_le {b1 b2 : ℝ} (h0 : 0 < b2) (h1 : b2 < 1) (gs : List ℝ) :
    (adamM b1 gs) ^ 2 * (1 - b2) ≤
      (1 - b1) ^ 2 * (∑ i ∈ Finset.range gs.length, (b1 ^ 2 / b2) ^ i) * adamV b2 gs := by
  have hb : 0 < 1 - b2 := by linarith
  induction gs using List.reverseRecOn with
  | nil => simp [adamM, adamV]
  | append_singleton gs g ih =>
    have hr : 0 ≤ b1 ^ 2 / b2 := by positivity
    have hS : 0 ≤ ∑ i ∈ Finset.range gs.length, (b1 ^ 2 / b2) ^ i := Finset.sum_nonneg fun i _ => by positivity
    have hV := adamV_nonneg h0.le h1 gs
    rw [adamM_snoc, adamV_snoc, List.length_append, List.length_singleton, Finset.sum_range_succ', pow_zero]
    have e : ∑ i ∈ Finset.range gs.length, (b1 ^ 2 / b2) ^ (i + 1) =
        b1 ^ 2 / b2 * ∑ i ∈ Finset.range gs.length, (b1 ^ 2 / b2) ^ i := by
      rw [Finset.mul_sum]
      exact Finset.sum_congr rfl fun i _ => by ring
    rw [e]
    set S := ∑ i ∈ Finset.range gs.length, (b1 ^ 2 / b2) ^ i
    have hc : 0 ≤ (1 - b1) ^ 2 / (1 - b2) := by positivity
    have key := sq_add_le (a := b1 * adamM b1 gs) (b := (1 - b1) * g) (s := b1 ^ 2 / b2 * S)
      (P := (1 - b1) ^ 2 / (1 - b2) * (b2 * adamV b2 gs)) (Q := (1 - b1) ^ 2 * g ^ 2) (by positivity) (by positivity)
      (by positivity) (by
        have e2 : b1 ^ 2 / b2 * S * ((1 - b1) ^ 2 / (1 - b2) * (b2 * adamV b2 gs)) =
            b1 ^ 2 * ((1 - b1) ^ 2 * S * adamV b2 gs / (1 - b2)) := by
          field_simp
        rw [e2, mul_pow]
        apply mul_le_mul_of_nonneg_left _ (sq_nonneg _)
        rw [le_div_iff₀ hb]
        exact ih) (by rw [mul_pow])
    calc (b1 * adamM b1 gs + (1 - b1) * g) ^ 2 * (1 - b2)
        ≤ ((1 + b1 ^ 2 / b2 * S) * ((1 - b1) ^ 2 / (1 - b2) * (b2 * adamV b2 gs) + (1 - b1) ^ 2 * g ^ 2)) * (1 - b2) :=
          mul_le_mul_of_nonneg_right key hb.le
      _ = (1 - b1) ^ 2 * (b1 ^ 2 / b2 * S + 1) * (b2 * adamV b2 gs + (1 - b2) * g ^ 2) := by
          field_simp
          ring

theorem adamDelta_le {eta b1 b2 eps : ℝ} (h10 : 0 ≤ b1) (h11 : b1 < 1) (h20 : 0 < b2) (h21 : b2 < 1) (he : 0 < eps)
    (gs : List ℝ) (hne : gs ≠ []) : |adamDelta eta b1 b2 eps gs| ≤ |eta| * adamLimit b1 b2 gs.length := by
  have hn : gs.length ≠ 0 := fun h => hne (List.length_eq_zero_iff.mp h)
  have k1 : 1 - b1 ^ gs.length = (1 - b1) * ∑ i ∈ Finset.range gs.length, b1 ^ i := by
    rw [mul_neg_geom_sum]
  have k2 : 1 - b2 ^ gs.length = (1 - b2) * ∑ i ∈ Finset.range gs.length, b2 ^ i := by
    rw [mul_neg_geom_sum]
  have p1 : 0 < 1 - b1 := by linarith
  have p2 : 0 < 1 - b2 := by linarith
  have q1 : 0 < 1 - b1 ^ gs.length := by
    have := pow_lt_one₀ h10 h11 hn
    linarith
  have q2 : 0 < 1 - b2 ^ gs.length := by
    have := pow_lt_one₀ h20.le h21 hn
    linarith
  have hV := adamV_nonneg h20.le h21 gs
  have hM := adamM_sq_le (b1 := b1) h20 h21 gs
  unfold adamDelta adamLimit
  have s0 : 0 ≤ ∑ i ∈ Finset.range gs.length, (b1 ^ 2 / b2) ^ i := Finset.sum_nonneg fun i _ => by positivity
  generalize ∑ i ∈ Finset.range gs.length, b1 ^ i = S1 at *
  generalize ∑ i ∈ Finset.range gs.length, b2 ^ i = S2 at *
  generalize ∑ i ∈ Finset.range gs.length, (b1 ^ 2 / b2) ^ i = S at *
  have s1 : 0 < S1 := by
    rw [k1] at q1
    exact (mul_pos_iff_of_pos_left p1).mp q1
  have s2 : 0 < S2 := by
    rw [k2] at q2
    exact (mul_pos_iff_of_pos_left p2).mp q2
  rw [k1, k2]
  obtain ⟨vc, hvc⟩ : ∃ vc, vc = adamV b2 gs / ((1 - b2) * S2) := ⟨_, rfl⟩
  rw [← hvc]
  have hvc0 : 0 ≤ vc := by rw [hvc]; positivity
  have hv : adamV b2 gs = vc * ((1 - b2) * S2) := by
    rw [hvc]
    field_simp
  have hm : |adamM b1 gs| ≤ (1 - b1) * Real.sqrt (S2 * S) * Real.sqrt vc := by
    apply abs_le_of_sq_le_sq _ (by positivity)
    rw [mul_pow, mul_pow, Real.sq_sqrt (by positivity), Real.sq_sqrt hvc0]
    rw [hv] at hM
    have : (adamM b1 gs) ^ 2 * (1 - b2) ≤ ((1 - b1) ^ 2 * (S2 * S) * vc) * (1 - b2) := by
      calc _ ≤ _ := hM
        _ = _ := by ring
    exact le_of_mul_le_mul_right this p2
  rw [abs_mul]
  apply mul_le_mul_of_nonneg_left _ (abs_nonneg _)
  have hd : 0 < Real.sqrt vc + eps := by positivity
  rw [abs_div, abs_of_pos hd, abs_div, abs_of_pos (mul_pos p1 s1), div_le_iff₀ hd, div_le_iff₀ (mul_pos p1 s1)]
  calc |adamM b1 gs| ≤ (1 - b1) * Real.sqrt (S2 * S) * Real.sqrt vc := hm
    _ ≤ (1 - b1) * Real.sqrt (S2 * S) * (Real.sqrt vc + eps) := by
        apply mul_le_mul_of_nonneg_left _ (by positivity)
        linarith
    _ = Real.sqrt (S2 * S) / S1 * (Real.sqrt vc + eps) * ((1 - b1) * S1) := by
        field_simp

theorem default_powers : ∀ k : Nat, 2 * (9 / 10 : ℝ) ^ (k + 7) ≤ (999 / 1000 : ℝ) ^ (k + 7)
  | 0 => by norm_num
  | k + 1 => by
    have h := default_powers k
    have e1 : (9 / 10 : ℝ) ^ (k + 1 + 7) = (9 / 10) ^ (k + 7) * (9 / 10) := by rw [← pow_succ]
    have e2 : (999 / 1000 : ℝ) ^ (k + 1 + 7) = (999 / 1000) ^ (k + 7) * (999 / 1000) := by rw [← pow_succ]
    rw [e1, e2]
    have : (0 : ℝ) < (9 / 10) ^ (k + 7) := by positivity
    nlinarith

/-- With the default constants no step is larger than 7.28 times the learning rate. -/
theorem default_limit (n : Nat) (hn : 1 ≤ n) : adamLimit (9 / 10) (999 / 1000) n ≤ 728 / 100 := by
  unfold adamLimit
  have k1 : 1 - (9 / 10 : ℝ) ^ n = (1 - 9 / 10) * ∑ i ∈ Finset.range n, (9 / 10 : ℝ) ^ i := by rw [mul_neg_geom_sum]
  have k2 : 1 - (999 / 1000 : ℝ) ^ n = (1 - 999 / 1000) * ∑ i ∈ Finset.range n, (999 / 1000 : ℝ) ^ i := by
    rw [mul_neg_geom_sum]
  have k0 : 1 - (((9 / 10 : ℝ) ^ 2 / (999 / 1000)) ^ n) = (1 - (9 / 10 : ℝ) ^ 2 / (999 / 1000)) *
      ∑ i ∈ Finset.range n, ((9 / 10 : ℝ) ^ 2 / (999 / 1000)) ^ i := by rw [mul_neg_geom_sum]
  have g0 : (0 : ℝ) ≤ ((9 / 10 : ℝ) ^ 2 / (999 / 1000)) ^ n := by positivity
  have s1 : 1 ≤ ∑ i ∈ Finset.range n, (9 / 10 : ℝ) ^ i := by
    have := Finset.single_le_sum (f := fun i => (9 / 10 : ℝ) ^ i) (s := Finset.range n) (fun i _ => by positivity)
      (Finset.mem_range.mpr hn)
    simpa using this
  have s2 : 0 ≤ ∑ i ∈ Finset.range n, (999 / 1000 : ℝ) ^ i := Finset.sum_nonneg fun i _ => by positivity
  have s0 : 0 ≤ ∑ i ∈ Finset.range n, ((9 / 10 : ℝ) ^ 2 / (999 / 1000)) ^ i := Finset.sum_nonneg fun i _ => by positivity
  have small : n < 7 → ∑ i ∈ Finset.range n, (999 / 1000 : ℝ) ^ i ≤ 7 := by
    intro h7
    calc _ ≤ ∑ i ∈ Finset.range n, (1 : ℝ) :=
          Finset.sum_le_sum fun i _ => pow_le_one₀ (by norm_num) (by norm_num)
      _ = (n : ℝ) := by simp
      _ ≤ 7 := by exact_mod_cast h7.le
  have h12 : ∑ i ∈ Finset.range n, (999 / 1000 : ℝ) ^ i ≤ 10 * (∑ i ∈ Finset.range n, (9 / 10 : ℝ) ^ i) ^ 2 := by
    by_cases h7 : n < 7
    · have := small h7
      nlinarith
    · obtain ⟨k, rfl⟩ := Nat.exists_eq_add_of_le' (not_lt.mp h7)
      have hp := default_powers k
      have hq : (0 : ℝ) ≤ (9 / 10) ^ (k + 7) := by positivity
      set S1 := ∑ i ∈ Finset.range (k + 7), (9 / 10 : ℝ) ^ i
      set S2 := ∑ i ∈ Finset.range (k + 7), (999 / 1000 : ℝ) ^ i
      have e1 : S1 = 10 * (1 - (9 / 10) ^ (k + 7)) := by linarith
      have e2 : S2 = 1000 * (1 - (999 / 1000) ^ (k + 7)) := by linarith
      rw [e1, e2]
      nlinarith [sq_nonneg ((9 / 10 : ℝ) ^ (k + 7))]
  set S1 := ∑ i ∈ Finset.range n, (9 / 10 : ℝ) ^ i
  set S2 := ∑ i ∈ Finset.range n, (999 / 1000 : ℝ) ^ i
  set S := ∑ i ∈ Finset.range n, ((9 / 10 : ℝ) ^ 2 / (999 / 1000)) ^ i
  have hS : S ≤ 52858 / 10000 := by
    have : (1 - (9 / 10 : ℝ) ^ 2 / (999 / 1000)) * S ≤ 1 := by linarith
    norm_num at this
    linarith
  rw [div_le_iff₀ (by linarith)]
  apply Real.sqrt_le_iff.mpr
  refine ⟨by positivity, ?_⟩
  have : S2 * S ≤ 10 * S1 ^ 2 * (52858 / 10000) := mul_le_mul h12 hS s0 (by positivity)
  nlinarith [sq_nonneg S1]

end Verif.Opt

namespace Verif.Net

open Verif.Spec Verif.Opt Verif.Training

theorem Layout.Holds.blocks {p : Layout} {i : Nat} {a : AnyLayer} (h : p.Holds i a) : Blocks a := by
  cases hq : p.loss i with
  | some lf =>
    obtain ⟨l, rfl, _⟩ := (Layout.holds_loss hq).mp h
    exact ⟨rfl, rfl⟩
  | none => exact ((Layout.holds_layer hq).mp h).blocks

/-- Layer `a` at position `i` of a model that began as `net`, after its parameters have moved by at most `K`. -/
def Moved (net : Net) (n : Nat) (K : ℝ) (i : Nat) (a : AnyLayer) : Prop :=
  (layoutOf net n).Holds i a ∧ ∃ a0, net.layers[i]? = some a0 ∧ a.kind = a0.kind ∧ Blocks a0 ∧
    ∀ j, j < a0.kind.paramCount → |vec a.params.flatten j - vec a0.params.flatten j| ≤ K

theorem moved_kept (net : Net) (n : Nat) (K : ℝ) (i : Nat) : Stable (Moved net n K i) := by
  have hk := (layoutOf net n).kept i
  have key : ∀ {a b : AnyLayer}, core b = core a → (layoutOf net n).Holds i b → Moved net n K i a → Moved net n K i b := by
    rintro a b hc hb ⟨_, a0, h1, h2, h3, h4⟩
    refine ⟨hb, a0, h1, (kind_of_core hc).trans h2, h3, ?_⟩
    rw [params_of_core hc]
    exact h4
  exact {
    last := fun a x h => key (core_setLastInput a x) (hk.last a x h.1) h
    forward := fun a x a' e h he => key (core_forward he) (hk.forward a x a' e h.1 he) h
    training := fun a x a' e h he => key (core_trainingForward he) (hk.training a x a' e h.1 he) h
    backward := fun a x a' e h he => key (core_backward he) (hk.backward a x a' e h.1 he) h
    target := fun f l t h => ⟨hk.target f l t h.1, h.2⟩
    reset := fun f l h => ⟨hk.reset f l h.1, h.2⟩ }

section

variable {σ : Type} {opt : σ → ℝ → ℝ → σ × ℝ} {Inv : σ → Prop} {B : ℝ}

theorem optAt_inv (hi : ∀ s p g, Inv s → Inv (opt s p g).1) {s : σ} (hs : Inv s) (p g : Nat → ℝ) :
    ∀ i, Inv (optAt opt s p g i)
  | 0 => hs
  | i + 1 => hi _ _ _ (optAt_inv hi hs p g i)

theorem train_moves (hi : ∀ s p g, Inv s → Inv (opt s p g).1) (hb : ∀ s p g, Inv s → |(opt s p g).2 - p| ≤ B)
    {s : σ} (hs : Inv s) {net : Net} {n : Nat} {K : ℝ} {i : Nat} {a : AnyLayer} (h : Moved net n K i a) :
    ∃ s' a', a.train opt s = ((s', a'), .ok ()) ∧ Inv s' ∧ Moved net n (K + B) i a' := by
  obtain ⟨hh, a0, h1, h2, h3, h4⟩ := h
  obtain ⟨s', a', e, hh'⟩ := Layout.train_layer opt s hh
  have hbl := hh.blocks
  obtain ⟨l', t1, t2, t3, t4, t5, _⟩ := Opt.trainSelf_spec opt ⟨a.kind, a.params, a.paramGrads⟩ hbl.1 hbl.2 s
  have e' := e
  unfold AnyLayer.train at e'
  rw [t1] at e'
  dsimp only at e' t2 t3 t4 t5
  injection e' with e1 _
  injection e1 with e2 e3
  have hl1 : l'.params.map List.length = a.params.map List.length := Eq.trans t3 hbl.1.symm
  have hl2 : l'.grads.map List.length = a.paramGrads.map List.length := Eq.trans t4 hbl.2.symm
  have hlen : l'.params.length = a.params.length := by simpa using congrArg List.length hl1
  have hg : l'.grads.length = (a.setParams l'.params).paramGrads.length := by
    rw [paramGrads_setParams]
    simpa using congrArg List.length hl2
  have hp : a'.params = l'.params := by
    rw [← e3, (paramGrads_setParamGrads hg).2.1, params_setParams' hl1]
  have hk : a'.kind = a.kind := by
    rw [← e3, (paramGrads_setParamGrads hg).2.2.1, kind_setParams]
  refine ⟨s', a', e, ?_, hh', a0, h1, hk.trans h2, h3, fun j hj => ?_⟩
  · rw [← e2]
    exact optAt_inv hi hs _ _ _
  · rw [hp, t5 j (by rw [h2]; exact hj)]
    have k1 := hb _ (vec a.params.flatten j) (vec a.paramGrads.flatten j)
      (optAt_inv hi hs (vec a.params.flatten) (vec a.paramGrads.flatten) j)
    have k2 := h4 j hj
    rw [abs_le] at k1 k2 ⊢
    constructor <;> linarith [k1.1, k1.2, k2.1, k2.2]

theorem trainLayers_moves (hi : ∀ s p g, Inv s → Inv (opt s p g).1) (hb : ∀ s p g, Inv s → |(opt s p g).2 - p| ≤ B)
    {net : Net} {n : Nat} {K : ℝ} : ∀ (ls : List AnyLayer) (s : σ) (k : Nat), Inv s →
    (∀ i a, ls[i]? = some a → Moved net n K (k + i) a) → ∃ s' ls', trainLayers opt s ls = ((s', ls'), .ok ()) ∧ Inv s' ∧
      ls'.length = ls.length ∧ ∀ i a, ls'[i]? = some a → Moved net n (K + B) (k + i) a
  | [], s, k, hs, h => ⟨s, [], rfl, hs, rfl, fun i a ha => by simp at ha⟩
  | a :: as, s, k, hs, h => by
    obtain ⟨s1, a', h1, hs1, h2⟩ := train_moves hi hb hs (h 0 a rfl)
    obtain ⟨s2, ls', h3, hs2, h4, h5⟩ := trainLayers_moves hi hb as s1 (k + 1) hs1 (fun i b hb => by
      have := h (i + 1) b hb
      rwa [show k + 1 + i = k + (i + 1) by omega])
    refine ⟨s2, a' :: ls', ?_, hs2, by simp [h4], ?_⟩
    · unfold trainLayers
      rw [h1]
      dsimp only
      rw [h3]
    · intro i b hb
      cases i with
      | zero => cases hb; exact h2
      | succ i =>
        have := h5 i b hb
        rwa [show k + 1 + i = k + (i + 1) by omega] at this

theorem netTrain_moves (hi : ∀ s p g, Inv s → Inv (opt s p g).1) (hb : ∀ s p g, Inv s → |(opt s p g).2 - p| ≤ B)
    {net m : Net} {n : Nat} {K : ℝ} {s : σ} (hs : Inv s) (h : AllAt (Moved net n K) m.layers) :
    Inv (m.train opt s).1.1 ∧ AllAt (Moved net n (K + B)) (m.train opt s).1.2.layers := by
  obtain ⟨s', ls', h1, h2, _, h3⟩ := trainLayers_moves hi hb m.layers s 0 hs (K := K) (n := n) (net := net)
    (fun i a ha => by rw [Nat.zero_add]; exact h i a ha)
  unfold Net.train
  rw [h1]
  exact ⟨h2, fun i a ha => by have := h3 i a ha; rwa [Nat.zero_add] at this⟩

theorem serve_moves (hi : ∀ s p g, Inv s → Inv (opt s p g).1) (hb : ∀ s p g, Inv s → |(opt s p g).2 - p| ≤ B)
    {net : Net} {n : Nat} : ∀ (cs : List UserCall) (K : ℝ) (s : σ) (m : Net) (r : σ × Net), Inv s →
    AllAt (Moved net n K) m.layers → serve opt cs (s, m) = .ok r →
    Inv r.1 ∧ AllAt (Moved net n (K + trainings cs * B)) r.2.layers
  | [], K, s, m, r, hs, h, e => by
    unfold serve at e
    cases e
    simpa [trainings] using And.intro hs h
  | .predict x :: cs, K, s, m, r, hs, h, e => by
    unfold serve at e
    obtain ⟨q, hq, e⟩ := Exec.bind_eq_ok e
    split at e
    · exact serve_moves hi hb cs K _ _ r hs (predict_kept (moved_kept net n K) h (r := q.2) hq) e
    · cases e
  | .resetScore :: cs, K, s, m, r, hs, h, e =>
    serve_moves hi hb cs K _ _ r hs (resetScore_kept (moved_kept net n K) h) e
  | .step x t :: cs, K, s, m, r, hs, h, e => by
    unfold serve at e
    obtain ⟨q, hq, e⟩ := Exec.bind_eq_ok e
    split at e
    · exact serve_moves hi hb cs K _ _ r hs (step_kept (moved_kept net n K) h (e := q.2) hq) e
    · cases e
  | .train :: cs, K, s, m, r, hs, h, e => by
    unfold serve at e
    obtain ⟨q, hq, e⟩ := Exec.bind_eq_ok e
    obtain ⟨k1, k2⟩ := netTrain_moves hi hb hs h
    obtain ⟨k3, k4⟩ := serve_moves hi hb cs (K + B) _ _ r k1 k2 e
    refine ⟨k3, ?_⟩
    have : K + B + trainings cs * B = K + trainings (.train :: cs) * B := by
      simp only [trainings, Nat.cast_add, Nat.cast_one]
      ring
    rw [← this]
    exact k4

/-- The number of calls of `train` among the calls of a training run. -/
def trainsOf : List TrainCall → Nat
  | [] => 0
  | .train :: cs => trainsOf cs + 1
  | _ :: cs => trainsOf cs

theorem trainsOf_append (a b : List TrainCall) : trainsOf (a ++ b) = trainsOf a + trainsOf b := by
  induction a with
  | nil => simp [trainsOf]
  | cons c a ih => cases c <;> simp [trainsOf, ih] <;> omega

theorem trainsOf_steps (l : List Nat) : trainsOf (l.map .step) = 0 := by
  induction l with
  | nil => rfl
  | cons i l ih => simpa [trainsOf] using ih

theorem trainsOf_run (n b epochs : Nat) : trainsOf (trainCalls n b epochs) = epochs * batchCount n b := by
  have h1 : trainsOf (epochCalls n b) = batchCount n b := by
    unfold epochCalls
    have : ∀ l : List Nat, trainsOf (l.flatMap fun k => .reset :: ((batchSamples n b k).map .step ++ [.train])) = l.length := by
      intro l
      induction l with
      | nil => rfl
      | cons k l ih =>
        rw [List.flatMap_cons, trainsOf_append, ih]
        simp only [trainsOf, trainsOf_append, trainsOf_steps, List.length_cons]
        omega
    rw [this, List.length_range]
  unfold trainCalls
  induction epochs with
  | zero => simp [trainsOf]
  | succ e ih =>
    rw [List.replicate_succ, List.flatten_cons, trainsOf_append, ih, h1]
    ring

theorem performAll_moves (hi : ∀ s p g, Inv s → Inv (opt s p g).1) (hb : ∀ s p g, Inv s → |(opt s p g).2 - p| ≤ B)
    (d : Data.Dataset ℝ) {net : Net} {n : Nat} : ∀ (cs : List TrainCall) (K : ℝ) (s r : σ × Net), Inv s.1 →
    AllAt (Moved net n K) s.2.layers → performAll (modelOps opt d) cs s = .ok r →
    Inv r.1 ∧ AllAt (Moved net n (K + trainsOf cs * B)) r.2.layers
  | [], K, s, r, hs, h, e => by
    unfold performAll at e
    cases e
    simpa [trainsOf] using And.intro hs h
  | .reset :: cs, K, s, r, hs, h, e =>
    performAll_moves hi hb d cs K (s.1, s.2.resetScore) r hs (resetScore_kept (moved_kept net n K) h) e
  | .step i :: cs, K, s, r, hs, h, e => by
    unfold performAll at e
    obtain ⟨q, hq, e⟩ := Exec.bind_eq_ok e
    obtain ⟨x, _, hq⟩ := Exec.bind_eq_ok hq
    obtain ⟨t, _, hq⟩ := Exec.bind_eq_ok hq
    obtain ⟨m, hm, hq⟩ := Exec.bind_eq_ok hq
    cases hq
    unfold raise at hm
    obtain ⟨p, hp, hm⟩ := Exec.bind_eq_ok hm
    split at hm
    · cases hm
      exact performAll_moves hi hb d cs K (s.1, p.1) r hs (step_kept (moved_kept net n K) h (e := p.2) hp) e
    · cases hm
  | .train :: cs, K, s, r, hs, h, e => by
    unfold performAll at e
    obtain ⟨q, hq, e⟩ := Exec.bind_eq_ok e
    obtain ⟨u, _, hq⟩ := Exec.bind_eq_ok hq
    cases hq
    obtain ⟨k1, k2⟩ := netTrain_moves hi hb hs h
    obtain ⟨k3, k4⟩ := performAll_moves hi hb d cs (K + B) _ r k1 k2 e
    refine ⟨k3, ?_⟩
    have : K + B + trainsOf cs * B = K + trainsOf (.train :: cs) * B := by
      simp only [trainsOf, Nat.cast_add, Nat.cast_one]
      ring
    rw [← this]
    exact k4

end

/-- A model to begin with. -/
theorem moved_self {net : Net} {n : Nat} (h : Agrees net n) : AllAt (Moved net n 0) net.layers := by
  intro i a ha
  have hh := agrees_holds h i a ha
  exact ⟨hh, a, ha, rfl, hh.blocks, fun j _ => by simp⟩

theorem Moved.within {net : Net} {n : Nat} {K : ℝ} {i : Nat} {a a0 : AnyLayer} (h : Moved net n K i a)
    (h0 : net.layers[i]? = some a0) : Within K a0 a := by
  obtain ⟨hh, a1, h1, h2, h3, h4⟩ := h
  rw [h0] at h1
  cases h1
  refine ⟨h2, fun j hj => ⟨_, _, rd_flat_vec h3.1 hj, rd_flat_vec hh.blocks.1 (by rw [h2]; exact hj), h4 j hj⟩⟩

end Verif.Net

namespace Verif.Opt

open Verif.Spec Verif.Props

/-- Gradients that make a step of Adam largest. -/
noncomputable def worst (q A : ℝ) : Nat → List ℝ
  | 0 => []
  | t + 1 => (worst q A t).map (q * ·) ++ [A]

theorem worst_length (q A : ℝ) : ∀ t, (worst q A t).length = t
  | 0 => rfl
  | t + 1 => by simp [worst, worst_length q A t]

theorem adamM_map (b1 q : ℝ) (gs : List ℝ) : adamM b1 (gs.map (q * ·)) = q * adamM b1 gs := by
  induction gs using List.reverseRecOn with
  | nil => simp [adamM]
  | append_singleton gs g ih =>
    rw [List.map_append, List.map_singleton, adamM_snoc, adamM_snoc, ih]
    ring

theorem adamV_map (b2 q : ℝ) (gs : List ℝ) : adamV b2 (gs.map (q * ·)) = q ^ 2 * adamV b2 gs := by
  induction gs using List.reverseRecOn with
  | nil => simp [adamV]
  | append_singleton gs g ih =>
    rw [List.map_append, List.map_singleton, adamV_snoc, adamV_snoc, ih]
    ring

theorem worst_moments {b1 b2 : ℝ} (h2 : 0 < b2) (A : ℝ) : ∀ t,
    adamM b1 (worst (b1 / b2) A t) = (1 - b1) * A * ∑ i ∈ Finset.range t, (b1 ^ 2 / b2) ^ i ∧
    adamV b2 (worst (b1 / b2) A t) = (1 - b2) * A ^ 2 * ∑ i ∈ Finset.range t, (b1 ^ 2 / b2) ^ i
  | 0 => by simp [worst, adamM, adamV]
  | t + 1 => by
    obtain ⟨h3, h4⟩ := worst_moments h2 A t
    have e : ∑ i ∈ Finset.range t, (b1 ^ 2 / b2) ^ (i + 1) =
        b1 ^ 2 / b2 * ∑ i ∈ Finset.range t, (b1 ^ 2 / b2) ^ i := by
      rw [Finset.mul_sum]
      exact Finset.sum_congr rfl fun i _ => by ring
    unfold worst
    rw [adamM_snoc, adamV_snoc, adamM_map, adamV_map, h3, h4, Finset.sum_range_succ', pow_zero, e]
    constructor
    · field_simp
    · field_simp

theorem adamDelta_sharp {b1 b2 eps : ℝ} (h10 : 0 ≤ b1) (h11 : b1 < 1) (h20 : 0 < b2) (h21 : b2 < 1) (he : 0 < eps)
    (eta : ℝ) (heta : 0 < eta) (t : Nat) (ht : 1 ≤ t) (c : ℝ) (hc : c < adamLimit b1 b2 t) :
    ∃ gs : List ℝ, gs.length = t ∧ eta * c ≤ adamDelta eta b1 b2 eps gs := by
  have hn : t ≠ 0 := by omega
  have k1 : 1 - b1 ^ t = (1 - b1) * ∑ i ∈ Finset.range t, b1 ^ i := by rw [mul_neg_geom_sum]
  have k2 : 1 - b2 ^ t = (1 - b2) * ∑ i ∈ Finset.range t, b2 ^ i := by rw [mul_neg_geom_sum]
  have p1 : 0 < 1 - b1 := by linarith
  have p2 : 0 < 1 - b2 := by linarith
  have q1 : 0 < 1 - b1 ^ t := by
    have := pow_lt_one₀ h10 h11 hn
    linarith
  have q2 : 0 < 1 - b2 ^ t := by
    have := pow_lt_one₀ h20.le h21 hn
    linarith
  have s0 : 1 ≤ ∑ i ∈ Finset.range t, (b1 ^ 2 / b2) ^ i := by
    have := Finset.single_le_sum (f := fun i => (b1 ^ 2 / b2) ^ i) (s := Finset.range t) (fun i _ => by positivity)
      (Finset.mem_range.mpr (show 0 < t by omega))
    simpa using this
  have s1 : 0 < ∑ i ∈ Finset.range t, b1 ^ i := by
    rw [k1] at q1
    exact (mul_pos_iff_of_pos_left p1).mp q1
  have s2 : 0 < ∑ i ∈ Finset.range t, b2 ^ i := by
    rw [k2] at q2
    exact (mul_pos_iff_of_pos_left p2).mp q2
  -- gradients of size `A`
  have value : ∀ A : ℝ, 0 < A → adamDelta eta b1 b2 eps (worst (b1 / b2) A t) =
      eta * ((∑ i ∈ Finset.range t, (b1 ^ 2 / b2) ^ i) / (∑ i ∈ Finset.range t, b1 ^ i) /
        (Real.sqrt ((∑ i ∈ Finset.range t, (b1 ^ 2 / b2) ^ i) / ∑ i ∈ Finset.range t, b2 ^ i) + eps / A)) := by
    intro A hA
    obtain ⟨m1, m2⟩ := worst_moments (b1 := b1) h20 A t
    unfold adamDelta
    rw [m1, m2, worst_length, k1, k2]
    generalize ∑ i ∈ Finset.range t, b1 ^ i = S1 at *
    generalize ∑ i ∈ Finset.range t, b2 ^ i = S2 at *
    generalize ∑ i ∈ Finset.range t, (b1 ^ 2 / b2) ^ i = S at *
    have e1 : (1 - b2) * A ^ 2 * S / ((1 - b2) * S2) = A ^ 2 * (S / S2) := by field_simp
    have e2 : Real.sqrt (A ^ 2 * (S / S2)) = A * Real.sqrt (S / S2) := by
      rw [Real.sqrt_mul (by positivity), Real.sqrt_sq hA.le]
    rw [e1, e2]
    have hS : 0 ≤ Real.sqrt (S / S2) := Real.sqrt_nonneg _
    have d1 : A * Real.sqrt (S / S2) + eps ≠ 0 := by positivity
    have d2 : Real.sqrt (S / S2) + eps / A ≠ 0 := by positivity
    have e3 : A * Real.sqrt (S / S2) + eps = A * (Real.sqrt (S / S2) + eps / A) := by field_simp
    rw [e3]
    generalize Real.sqrt (S / S2) + eps / A = D at *
    field_simp
  unfold adamLimit at hc
  generalize hS1 : ∑ i ∈ Finset.range t, b1 ^ i = S1 at *
  generalize hS2 : ∑ i ∈ Finset.range t, b2 ^ i = S2 at *
  generalize hS : ∑ i ∈ Finset.range t, (b1 ^ 2 / b2) ^ i = S at *
  have hSp : 0 < S := by linarith
  have lim : Real.sqrt (S2 * S) / S1 * Real.sqrt (S / S2) = S / S1 := by
    rw [div_mul_eq_mul_div, ← Real.sqrt_mul (by positivity)]
    have : S2 * S * (S / S2) = S ^ 2 := by field_simp
    rw [this, Real.sqrt_sq hSp.le]
  have hr : 0 < Real.sqrt (S / S2) := Real.sqrt_pos.mpr (by positivity)
  generalize Real.sqrt (S2 * S) / S1 = L at *
  generalize Real.sqrt (S / S2) = R at *
  by_cases hc0 : c ≤ 0
  · refine ⟨worst (b1 / b2) 1 t, worst_length _ _ _, ?_⟩
    rw [value 1 one_pos]
    have h1 : 0 ≤ S / S1 / (R + eps / 1) := by positivity
    nlinarith
  · have hcp : 0 < c := not_le.mp hc0
    have gap : 0 < (L - c) * R := mul_pos (by linarith) hr
    refine ⟨worst (b1 / b2) (c * eps / ((L - c) * R)) t, worst_length _ _ _, ?_⟩
    rw [value _ (by positivity)]
    apply mul_le_mul_of_nonneg_left _ heta.le
    have e : eps / (c * eps / ((L - c) * R)) = (L - c) * R / c := by field_simp
    rw [e, le_div_iff₀ (by positivity), ← lim]
    have : c * (R + (L - c) * R / c) = L * R := by
      field_simp
      ring
    rw [this]

end Verif.Opt

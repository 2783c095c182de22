import Verif.Model.Dropout
import Verif.Proofs.Tab
import Mathlib.Tactic.Ring
import Mathlib.Tactic.Linarith
import Mathlib.Tactic.FieldSimp
import Mathlib.Algebra.Order.Field.Basic

namespace Verif.Drop
open Verif.Spec

/-- Buffers of the right length. -/
structure Good (l : Layer) : Prop where
  output : l.output.length = l.size
  inputGrad : l.inputGrad.length = l.size
  scale : l.scale = scaleOf l.p
  mask : ∀ i ∈ l.mask, i < l.size

theorem uniform_half (maxRand : Nat) (x : Nat) :
    uniform maxRand (1 / 2) 1 x = (x : ℝ) / (maxRand : ℝ) := by
  unfold uniform; dsimp only; ring

theorem dropLoop_eq (maxRand : Nat) (raw : Nat → Nat) (l : Layer) (hl : l.output.length = l.size) (x : List ℝ)
    (hx : x.length = l.size) :
    dropLoop maxRand raw l x = .ok (tab l.size fun i =>
        if (raw (l.drawn + i) : ℝ) / maxRand > l.p then vec x i * l.scale else 0,
      (List.range l.size).filter fun i => ¬ ((raw (l.drawn + i) : ℝ) / maxRand > l.p)) := by
  classical
  have key := forUp_returns (n := l.size) (s := (l.output, ([] : List Nat)))
    (body := fun i s => do
      let r := uniform maxRand (1 / 2) 1 (raw (l.drawn + i))
      if r > l.p then do
        let x ← rd x i
        let out ← wr s.1 i (x * l.scale)
        .ok (out, s.2)
      else do
        let out ← wr s.1 i 0
        .ok (out, s.2 ++ [i]))
    (fun k s => s = (tab l.size fun i => if i < k then
        (if (raw (l.drawn + i) : ℝ) / maxRand > l.p then vec x i * l.scale else 0) else vec l.output i,
      (List.range k).filter fun i => ¬ ((raw (l.drawn + i) : ℝ) / maxRand > l.p))) ?_ ?_
  · obtain ⟨s, h1, h2⟩ := key
    unfold dropLoop
    rw [h1, h2]
    congr 2
    apply tab_congr
    intro i hi
    rw [if_pos hi]
  · simp only [Nat.not_lt_zero, if_false, List.range_zero, List.filter_nil]
    rw [← hl, ← eq_tab]
  · rintro i s hi rfl
    dsimp only
    rw [uniform_half]
    by_cases h : (raw (l.drawn + i) : ℝ) / maxRand > l.p
    · rw [if_pos h, rd_vec (by omega), Exec.bind_ok, wr_tab _ _ hi, Exec.bind_ok]
      refine ⟨_, rfl, ?_⟩
      rw [List.range_succ, List.filter_append]
      have hf : List.filter (fun i => decide ¬ ((raw (l.drawn + i) : ℝ) / maxRand > l.p)) [i] = [] := by
        simp only [List.filter_cons, List.filter_nil]
        rw [if_neg (by simpa using h)]
      rw [hf, List.append_nil]
      congr 1
      apply tab_congr
      intro j hj
      unfold upd
      by_cases hji : j = i
      · subst hji; rw [if_pos rfl, if_pos (by omega), if_pos h]
      · rw [if_neg hji]
        dsimp only
        by_cases h' : j < i
        · rw [if_pos h', if_pos (show j < i + 1 by omega)]
        · rw [if_neg h', if_neg (by omega)]
    · rw [if_neg h, wr_tab _ _ hi, Exec.bind_ok]
      refine ⟨_, rfl, ?_⟩
      rw [List.range_succ, List.filter_append]
      have hf : List.filter (fun i => decide ¬ ((raw (l.drawn + i) : ℝ) / maxRand > l.p)) [i] = [i] := by
        simp only [List.filter_cons, List.filter_nil]
        rw [if_pos (by simpa using h)]
      rw [hf]
      congr 1
      apply tab_congr
      intro j hj
      unfold upd
      by_cases hji : j = i
      · subst hji; rw [if_pos rfl, if_pos (by omega), if_neg h]
      · rw [if_neg hji]
        dsimp only
        by_cases h' : j < i
        · rw [if_pos h', if_pos (show j < i + 1 by omega)]
        · rw [if_neg h', if_neg (by omega)]

theorem clearAt_eq (mask : List Nat) : ∀ {n : Nat} (f : Nat → ℝ), (∀ i ∈ mask, i < n) →
    clearAt mask (tab n f) = .ok (tab n fun i => if i ∈ mask then 0 else f i) := by
  induction mask with
  | nil => intro n f _; simp [clearAt]
  | cons i is ih =>
    intro n f h
    unfold clearAt
    rw [wr_tab _ _ (h i (by simp)), Exec.bind_ok, ih _ (fun j hj => h j (by simp [hj]))]
    congr 1
    apply tab_congr
    intro j hj
    by_cases h1 : j ∈ is
    · rw [if_pos h1, if_pos (by simp [h1])]
    · rw [if_neg h1]
      unfold upd
      by_cases h2 : j = i
      · rw [if_pos h2, if_pos (by simp [h2])]
      · rw [if_neg h2, if_neg (by simp [h1, h2])]

theorem arrScale_eq {dst src : List ℝ} {n : Nat} (h : dst.length = n) (hs : src.length = n) (v : ℝ) :
    arrScale dst src v n = .ok (tab n fun i => vec src i * v) := by
  unfold arrScale
  rw [eq_tab dst, h, forUp_tab (r := fun i => vec src i * v) (le_refl _)]
  · congr 1
    apply tab_congr
    intro i hi
    rw [if_pos hi]
  · intro i g hi
    rw [rd_vec (by omega), Exec.bind_ok, wr_tab _ _ hi]

theorem backward_eq (l : Layer) (hl : Good l) (g : List ℝ) (hg : g.length = l.size) :
    ∃ l', l.backward g = .ok (l', tab l.size fun i => if i ∈ l.mask then 0 else vec g i * l.scale) ∧
      Good l' ∧ l'.size = l.size ∧ l'.p = l.p ∧ l'.drawn = l.drawn ∧ l'.mask = l.mask := by
  refine ⟨{ l with inputGrad := tab l.size fun i => if i ∈ l.mask then 0 else vec g i * l.scale },
    ?_, ⟨hl.output, tab_length _ _, hl.scale, hl.mask⟩, rfl, rfl, rfl, rfl⟩
  unfold Layer.backward
  rw [arrScale_eq hl.inputGrad hg, Exec.bind_ok, clearAt_eq _ _ hl.mask, Exec.bind_ok]

theorem training_eq (maxRand : Nat) (raw : Nat → Nat) (l : Layer) (hl : Good l) (x : List ℝ)
    (hx : x.length = l.size) :
    ∃ l', l.trainingForward maxRand raw x = .ok (l', tab l.size fun i =>
        if (raw (l.drawn + i) : ℝ) / maxRand > l.p then vec x i * l.scale else 0) ∧
      Good l' ∧ l'.size = l.size ∧ l'.p = l.p ∧ l'.drawn = l.drawn + l.size ∧
      ∀ i, i < l.size → (i ∈ l'.mask ↔ ¬ ((raw (l.drawn + i) : ℝ) / maxRand > l.p)) := by
  unfold Layer.trainingForward
  rw [dropLoop_eq maxRand raw l hl.output x hx, Exec.bind_ok]
  refine ⟨_, rfl, ⟨tab_length _ _, hl.inputGrad, hl.scale, ?_⟩, rfl, rfl, rfl, ?_⟩
  · intro i hi
    have := (List.mem_filter.mp hi).1
    exact List.mem_range.mp this
  · intro i hi
    dsimp only
    rw [List.mem_filter, decide_eq_true_iff]
    exact ⟨fun h => h.2, fun h => ⟨List.mem_range.mpr hi, h⟩⟩

/-- Length of the argument of a call. -/
def Op.argLength : Op → Nat
  | .forward x => x.length
  | .trainingForward x => x.length
  | .backward g => g.length

/-- The call is a training pass. -/
def Op.isTraining : Op → Bool
  | .trainingForward _ => true
  | _ => false

theorem run_good (maxRand : Nat) (raw : Nat → Nat) (ops : List Op) : ∀ (l : Layer), Good l →
    (∀ op ∈ ops, op.argLength = l.size) →
    ∃ l', l.run maxRand raw ops = .ok l' ∧ Good l' ∧ l'.size = l.size ∧ l'.p = l.p ∧
      l'.drawn = l.drawn + l.size * (ops.countP Op.isTraining) ∧
      ((∀ op ∈ ops, op.isTraining = false) → l'.mask = l.mask) := by
  induction ops with
  | nil => intro l hl _; exact ⟨l, rfl, hl, rfl, rfl, by simp, fun _ => rfl⟩
  | cons op ops ih =>
    intro l hl h
    have h0 := h op (by simp)
    have hops : ∀ o ∈ ops, o.argLength = l.size := fun o ho => h o (by simp [ho])
    unfold Layer.run
    cases op with
    | forward x =>
      obtain ⟨l', a, b, c, d, e, f⟩ := ih l hl hops
      refine ⟨l', ?_, b, c, d, ?_, ?_⟩
      · simp only [Layer.apply, Layer.forward, Exec.bind_ok]; exact a
      · rw [e, List.countP_cons]; simp [Op.isTraining]
      · intro hn; exact f (fun o ho => hn o (by simp [ho]))
    | trainingForward x =>
      obtain ⟨l1, t1, t2, t3, t4, t5, t6⟩ := training_eq maxRand raw l hl x h0
      obtain ⟨l', a, b, c, d, e, f⟩ := ih l1 t2 (fun o ho => by rw [t3]; exact hops o ho)
      refine ⟨l', ?_, b, c.trans t3, d.trans t4, ?_, ?_⟩
      · simp only [Layer.apply]
        rw [t1, Exec.bind_ok]; exact a
      · rw [e, t5, t3, List.countP_cons]; simp [Op.isTraining]; ring
      · intro hn; exact absurd (hn (.trainingForward x) (by simp)) (by simp [Op.isTraining])
    | backward g =>
      obtain ⟨l1, t1, t2, t3, t4, t5, t6⟩ := backward_eq l hl g h0
      obtain ⟨l', a, b, c, d, e, f⟩ := ih l1 t2 (fun o ho => by rw [t3]; exact hops o ho)
      refine ⟨l', ?_, b, c.trans t3, d.trans t4, ?_, ?_⟩
      · simp only [Layer.apply]
        rw [t1, Exec.bind_ok]; exact a
      · rw [e, t5, t3, List.countP_cons]; simp [Op.isTraining]
      · intro hn; rw [f (fun o ho => hn o (by simp [ho])), t6]

theorem new_good (n : Nat) (p : ℝ) : Good (Layer.new n p) :=
  ⟨by simp [Layer.new], by simp [Layer.new], rfl, by simp [Layer.new]⟩

theorem run_append (maxRand : Nat) (raw : Nat → Nat) (a b : List Op) : ∀ (l : Layer),
    l.run maxRand raw (a ++ b) = (l.run maxRand raw a >>= fun l' => l'.run maxRand raw b) := by
  induction a with
  | nil => intro l; rfl
  | cons op a ih =>
    intro l
    simp only [List.cons_append, Layer.run]
    cases h : l.apply maxRand raw op with
    | ok r => simp only [Exec.bind_ok]; exact ih r.1
    | throw m => rfl
    | ub => rfl

end Verif.Drop

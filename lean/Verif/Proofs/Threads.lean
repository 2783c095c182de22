import Verif.Model.Threads
import Verif.Proofs.Tab
import Verif.Proofs.Dense

namespace Verif.Threads
open Verif.Spec

variable {Cell α : Type _} [DecidableEq Cell] [Add α]

/-- Effect of operations on one cell, executed one after the other. -/
def effect (c : Cell) : List (Op Cell α) → α → α
  | [], x => x
  | .set d v :: r, x => effect c r (if d = c then v else x)
  | .add d v :: r, x => effect c r (if d = c then x + v else x)

/-- Effect on cell `c` of what a (possibly interrupted) task still has to do. -/
def future (c : Cell) (t : Task Cell α) (x : α) : α :=
  match t with
  | ⟨[], _⟩ => x
  | ⟨.set d v :: r, _⟩ => effect c r (if d = c then v else x)
  | ⟨.add d v :: r, none⟩ => effect c r (if d = c then x + v else x)
  | ⟨.add d v :: r, some y⟩ => effect c r (if d = c then y + v else x)

theorem future_none (c : Cell) (ops : List (Op Cell α)) (x : α) :
    future c ⟨ops, none⟩ x = effect c ops x := by
  cases ops with
  | nil => rfl
  | cons o r => cases o <;> rfl

theorem future_step (c : Cell) (mem : Cell → α) (t : Task Cell α) :
    future c (stepTask mem t).2 ((stepTask mem t).1 c) = future c t (mem c) := by
  obtain ⟨ops, p⟩ := t
  cases ops with
  | nil => rfl
  | cons o r =>
    cases o with
    | set d v =>
      simp only [stepTask]
      rw [future_none]
      simp only [future]
      by_cases h : d = c
      · subst h; simp
      · simp [h, Ne.symm h]
    | add d v =>
      cases p with
      | none =>
        simp only [stepTask, future]
        by_cases h : d = c
        · subst h; simp
        · simp [h]
      | some y =>
        simp only [stepTask]
        rw [future_none]
        simp only [future]
        by_cases h : d = c
        · subst h; simp
        · simp [h, Ne.symm h]

/-- The task never touches `c`. -/
def Untouched (c : Cell) (t : Task Cell α) : Prop := ∀ o ∈ t.ops, o.cell ≠ c

theorem untouched_step {c : Cell} {mem : Cell → α} {t : Task Cell α} (h : Untouched c t) :
    Untouched c (stepTask mem t).2 ∧ (stepTask mem t).1 c = mem c := by
  obtain ⟨ops, p⟩ := t
  cases ops with
  | nil => exact ⟨h, rfl⟩
  | cons o r =>
    have hr : ∀ o ∈ r, o.cell ≠ c := fun o ho => h o (by simp [ho])
    have ho := h o (by simp)
    cases o with
    | set d v => exact ⟨hr, by simp [stepTask, Ne.symm ho]; intro e; exact absurd e.symm ho⟩
    | add d v =>
      cases p with
      | none => exact ⟨h, rfl⟩
      | some y => exact ⟨hr, by simp [stepTask]; intro e; exact absurd e.symm ho⟩

/-- A cell touched only by task `k`: its final value does not depend on the schedule. -/
theorem run_private (c : Cell) (k : Nat) (sched : List Nat) (mem : Cell → α)
    (ts : List (Task Cell α)) (t : Task Cell α) (hk : ts[k]? = some t)
    (hu : ∀ i t', i ≠ k → ts[i]? = some t' → Untouched c t')
    (hf : Finished (run sched mem ts).2) :
    (run sched mem ts).1 c = future c t (mem c) := by
  induction sched generalizing mem ts t with
  | nil =>
    simp only [run] at hf ⊢
    have := hf t (List.mem_of_getElem? hk)
    obtain ⟨ops, p⟩ := t
    simp only at this
    subst this
    rfl
  | cons i sched ih =>
    simp only [run] at hf ⊢
    cases hi : ts[i]? with
    | none =>
      rw [hi] at hf
      exact ih mem ts t hk hu hf
    | some t' =>
      rw [hi] at hf
      simp only at hf ⊢
      have hil : i < ts.length := by
        by_contra h
        rw [List.getElem?_eq_none (by omega)] at hi
        simp at hi
      by_cases hik : i = k
      · subst hik
        rw [hk] at hi
        obtain rfl : t = t' := by simpa using hi
        rw [ih _ _ (stepTask mem t).2 (by simp [hil]) ?_ hf, future_step]
        intro j t' hj hj'
        rw [List.getElem?_set_ne (Ne.symm hj)] at hj'
        exact hu j t' hj hj'
      · obtain ⟨h1, h2⟩ := untouched_step (mem := mem) (hu i t' hik hi)
        rw [ih _ _ t (by rw [List.getElem?_set_ne hik]; exact hk) ?_ hf, h2]
        intro j t'' hj hj'
        by_cases hji : j = i
        · subst hji
          simp [hil] at hj'
          subst hj'
          exact h1
        · rw [List.getElem?_set_ne (Ne.symm hji)] at hj'
          exact hu j t'' hj hj'

theorem effect_append (c : Cell) (a b : List (Op Cell α)) (x : α) :
    effect c (a ++ b) x = effect c b (effect c a x) := by
  induction a generalizing x with
  | nil => rfl
  | cons o a ih => cases o <;> simp [effect, ih]

theorem tab_succ {β : Type _} (n : Nat) (f : Nat → β) : tab (n + 1) f = tab n f ++ [f n] := by
  simp [tab, List.range_succ]

theorem effect_tab_add (c : Cell) (n : Nat) (v : Nat → α) (x : α) :
    effect c (tab n fun j => Op.add c (v j)) x = ordSum x n v := by
  induction n with
  | zero => rfl
  | succ n ih => rw [tab_succ, effect_append, ih]; simp [effect, ordSum]

omit [DecidableEq Cell] [Add α] in
theorem tab_mem {β : Type _} {n : Nat} {f : Nat → β} {b : β} (h : b ∈ tab n f) :
    ∃ i, i < n ∧ b = f i := by
  simp only [tab, List.mem_map, List.mem_range] at h
  obtain ⟨i, hi, rfl⟩ := h
  exact ⟨i, hi, rfl⟩

theorem tab_getElem?_some {β : Type _} {n i : Nat} {f : Nat → β} {b : β}
    (h : (tab n f)[i]? = some b) : i < n ∧ b = f i := by
  by_cases hi : i < n
  · rw [tab_getElem? _ hi] at h
    exact ⟨hi, by simpa using h.symm⟩
  · rw [tab_getElem?_none _ (by omega)] at h
    simp at h

/-- Final value of `dst[i]` after the tasks of `dense_thread_opt`, for every schedule. -/
theorem dense_run [Zero α] [Mul α] (src w b : List α) (n m : Nat) (mem : Nat → α)
    (sched : List Nat)
    (hf : Finished (run sched mem (denseTasks src w b n m)).2) {i : Nat} (hi : i < m) :
    (run sched mem (denseTasks src w b n m)).1 i
      = ordSum (vec b i) n fun j => mat w n i j * vec src j := by
  rw [run_private i i sched mem _ (denseTask src w b n i)
    (by unfold denseTasks; exact tab_getElem? _ hi) ?_ hf]
  · unfold denseTask
    rw [future_none]
    simp only [effect, if_true]
    rw [effect_tab_add]
  · intro k t hk ht
    obtain ⟨_, rfl⟩ := tab_getElem?_some (by first | exact ht | (unfold denseTasks at ht; exact ht))
    intro o ho
    simp only [denseTask, List.mem_cons] at ho
    rcases ho with rfl | ho
    · exact hk
    · obtain ⟨j, _, rfl⟩ := tab_mem ho
      exact hk

/-- Cells outside `dst[0..m)` are not written. -/
theorem run_untouched (c : Cell) (sched : List Nat) (mem : Cell → α) (ts : List (Task Cell α))
    (hu : ∀ t ∈ ts, Untouched c t) : (run sched mem ts).1 c = mem c := by
  induction sched generalizing mem ts with
  | nil => rfl
  | cons i sched ih =>
    simp only [run]
    cases hi : ts[i]? with
    | none => exact ih mem ts hu
    | some t =>
      simp only
      obtain ⟨h1, h2⟩ := untouched_step (mem := mem) (hu t (List.mem_of_getElem? hi))
      rw [ih, h2]
      intro t' ht'
      rcases List.mem_or_eq_of_mem_set ht' with h | rfl
      · exact hu t' h
      · exact h1

theorem effect_untouched (c : Cell) (ops : List (Op Cell α)) (x : α) (h : ∀ o ∈ ops, o.cell ≠ c) :
    effect c ops x = x := by
  induction ops generalizing x with
  | nil => rfl
  | cons o r ih =>
    have hr : ∀ o ∈ r, o.cell ≠ c := fun o ho => h o (by simp [ho])
    have ho := h o (by simp)
    cases o with
    | set d v => simp only [effect]; rw [ih _ hr, if_neg (by simpa [Op.cell] using ho)]
    | add d v => simp only [effect]; rw [ih _ hr, if_neg (by simpa [Op.cell] using ho)]

theorem dense1_weight_effect [Zero α] [Mul α] (g x w : List α) (n i c q : Nat) (a : α) :
    effect (GCell.weight q) ((List.range c).flatMap fun j =>
      [.add (.weight (i * n + j)) (vec g i * vec x j),
       .add (.input j) (vec g i * mat w n i j)]) a
      = if i * n ≤ q ∧ q < i * n + c then a + vec g i * vec x (q - i * n) else a := by
  induction c with
  | zero => simp [effect]
  | succ c ih =>
    rw [List.range_succ, List.flatMap_append, effect_append, ih]
    simp only [List.flatMap_cons, List.flatMap_nil, List.append_nil, effect, GCell.weight.injEq,
      reduceCtorEq, if_false]
    by_cases hq : i * n + c = q
    · subst hq
      simp
    · by_cases h : i * n ≤ q ∧ q < i * n + c
      · have : i * n ≤ q ∧ q < i * n + (c + 1) := by omega
        simp [hq, h, this]
      · have : ¬ (i * n ≤ q ∧ q < i * n + (c + 1)) := by omega
        simp [hq, h, this]

theorem dense1_untouched_bias [Zero α] [Mul α] (g x w : List α) (n i k : Nat) (h : k ≠ i) :
    Untouched (GCell.bias i) (dense1Task g x w n k) := by
  intro o ho
  simp only [dense1Task, List.mem_cons, List.mem_flatMap, List.mem_range] at ho
  rcases ho with rfl | ⟨j, _, ho⟩
  · simpa [Op.cell] using h
  · simp at ho
    rcases ho with rfl | rfl <;> simp [Op.cell]

theorem dense1_untouched_weight [Zero α] [Mul α] (g x w : List α) (n i j k : Nat) (hj : j < n)
    (h : k ≠ i) : Untouched (GCell.weight (i * n + j)) (dense1Task g x w n k) := by
  intro o ho
  simp only [dense1Task, List.mem_cons, List.mem_flatMap, List.mem_range] at ho
  rcases ho with rfl | ⟨j', hj', ho⟩
  · simp [Op.cell]
  · simp at ho
    rcases ho with rfl | rfl
    · simp only [Op.cell, ne_eq, GCell.weight.injEq]
      intro he
      exact h (rowmajor_inj hj' hj he).1
    · simp [Op.cell]

theorem dense1_run_bias [Zero α] [Mul α] (g x w : List α) (n m : Nat) (mem : GCell → α)
    (sched : List Nat) (hf : Finished (run sched mem (dense1Tasks g x w n m)).2) {i : Nat}
    (hi : i < m) :
    (run sched mem (dense1Tasks g x w n m)).1 (.bias i) = mem (.bias i) + vec g i := by
  rw [run_private _ i sched mem _ (dense1Task g x w n i)
    (by unfold dense1Tasks; exact tab_getElem? _ hi) ?_ hf]
  · unfold dense1Task
    rw [future_none]
    simp only [effect, if_true]
    apply effect_untouched
    intro o ho
    simp only [List.mem_flatMap, List.mem_range] at ho
    obtain ⟨j, _, ho⟩ := ho
    simp at ho
    rcases ho with rfl | rfl <;> simp [Op.cell]
  · intro k t hk ht
    obtain ⟨_, rfl⟩ := tab_getElem?_some (by first | exact ht | (unfold denseTasks at ht; exact ht))
    exact dense1_untouched_bias g x w n i k hk

theorem dense1_run_weight [Zero α] [Mul α] (g x w : List α) (n m : Nat) (mem : GCell → α)
    (sched : List Nat) (hf : Finished (run sched mem (dense1Tasks g x w n m)).2) {i j : Nat}
    (hi : i < m) (hj : j < n) :
    (run sched mem (dense1Tasks g x w n m)).1 (.weight (i * n + j))
      = mem (.weight (i * n + j)) + vec g i * vec x j := by
  rw [run_private _ i sched mem _ (dense1Task g x w n i)
    (by unfold dense1Tasks; exact tab_getElem? _ hi) ?_ hf]
  · unfold dense1Task
    rw [future_none]
    simp only [effect, reduceCtorEq, if_false]
    rw [dense1_weight_effect, if_pos (by omega)]
    congr 3
    omega
  · intro k t hk ht
    obtain ⟨_, rfl⟩ := tab_getElem?_some (by first | exact ht | (unfold denseTasks at ht; exact ht))
    exact dense1_untouched_weight g x w n i j k hj hk

/-! ### Schedules without overlapping read-modify-writes -/

section NoOverlap
variable {Cell β : Type _} [DecidableEq Cell] [AddCommMonoid β]

/-- What the operations add to `c`. -/
def addsTo (c : Cell) : List (Op Cell β) → β
  | [] => 0
  | .set _ _ :: r => addsTo c r
  | .add d v :: r => (if d = c then v else 0) + addsTo c r

/-- No operation assigns `c`. -/
def NoSet (c : Cell) (ops : List (Op Cell β)) : Prop := ∀ v, Op.set c v ∉ ops

/-- The pending value is the current content of the cell. -/
def PendOk (mem : Cell → β) (t : Task Cell β) : Prop :=
  match t with
  | ⟨.add d _ :: _, some y⟩ => y = mem d
  | ⟨_, some _⟩ => False
  | _ => True

theorem step_adds {c : Cell} {mem : Cell → β} {t : Task Cell β} (hn : NoSet c t.ops)
    (hp : PendOk mem t) :
    (stepTask mem t).1 c + addsTo c (stepTask mem t).2.ops = mem c + addsTo c t.ops := by
  obtain ⟨ops, p⟩ := t
  cases ops with
  | nil => rfl
  | cons o r =>
    cases o with
    | set d v =>
      have : d ≠ c := by rintro rfl; exact hn v (by simp)
      simp [stepTask, addsTo, Ne.symm this]
    | add d v =>
      cases p with
      | none => rfl
      | some y =>
        simp only [PendOk] at hp
        subst hp
        simp only [stepTask, addsTo]
        by_cases h : d = c
        · subst h; simp [add_assoc]
        · simp [h, Ne.symm h]

theorem step_noSet {c : Cell} {mem : Cell → β} {t : Task Cell β} (hn : NoSet c t.ops) :
    NoSet c (stepTask mem t).2.ops := by
  obtain ⟨ops, p⟩ := t
  cases ops with
  | nil => exact hn
  | cons o r =>
    have : NoSet c r := fun v hv => hn v (by simp [hv])
    cases o with
    | set d v => exact this
    | add d v => cases p with
      | none => exact hn
      | some y => exact this

theorem step_pendOk {mem : Cell → β} {t : Task Cell β} (h : PendOk mem t) :
    PendOk (stepTask mem t).1 (stepTask mem t).2 := by
  obtain ⟨ops, p⟩ := t
  cases ops with
  | nil => cases p <;> simp_all [PendOk, stepTask]
  | cons o r =>
    cases o with
    | set d v => simp [stepTask, PendOk]
    | add d v => cases p with
      | none => simp [stepTask, PendOk]
      | some y => simp [stepTask, PendOk]

theorem sum_map_eq_erase {γ : Type _} (f : γ → β) (l : List γ) {i : Nat} {t : γ}
    (h : l[i]? = some t) : (l.map f).sum = f t + ((l.eraseIdx i).map f).sum := by
  induction l generalizing i with
  | nil => simp at h
  | cons a l ih =>
    cases i with
    | zero => simp at h; subst h; simp
    | succ i =>
      simp at h
      simp only [List.map_cons, List.sum_cons, List.eraseIdx_cons_succ, ih h]
      rw [add_left_comm]

theorem eraseIdx_set {γ : Type _} (l : List γ) (i : Nat) (t : γ) :
    (l.set i t).eraseIdx i = l.eraseIdx i := by
  induction l generalizing i with
  | nil => rfl
  | cons a l ih => cases i <;> simp [ih]

theorem noOverlap_sum (c : Cell) (sched : List Nat) (mem : Cell → β) (ts : List (Task Cell β))
    (hs : NoOverlap sched mem ts) (hn : ∀ t ∈ ts, NoSet c t.ops)
    (hp : ∀ t ∈ ts, PendOk mem t)
    (hf : Finished (run sched mem ts).2) :
    (run sched mem ts).1 c = mem c + (ts.map fun t => addsTo c t.ops).sum := by
  induction sched generalizing mem ts with
  | nil =>
    simp only [run] at hf ⊢
    have : (ts.map fun t => addsTo c t.ops).sum = 0 := by
      apply List.sum_eq_zero
      intro x hx
      simp only [List.mem_map] at hx
      obtain ⟨t, ht, rfl⟩ := hx
      rw [hf t ht]; rfl
    rw [this, add_zero]
  | cons i sched ih =>
    obtain ⟨hpick, hrest⟩ := hs
    simp only [run] at hf ⊢
    cases hi : ts[i]? with
    | none =>
      rw [hi] at hf hrest
      exact ih mem ts hrest hn hp hf
    | some t =>
      rw [hi] at hf hrest
      simp only at hf hrest ⊢
      have hil : i < ts.length := by
        by_contra h
        rw [List.getElem?_eq_none (by omega)] at hi
        simp at hi
      have htm := List.mem_of_getElem? hi
      rw [ih _ _ hrest ?_ ?_ hf]
      · rw [sum_map_eq_erase _ _ hi, sum_map_eq_erase _ (ts.set i (stepTask mem t).2)
          (t := (stepTask mem t).2) (List.getElem?_set_self hil), eraseIdx_set, ← add_assoc, ← add_assoc,
          step_adds (hn t htm) (hp t htm)]
      · intro t' ht'
        rcases List.mem_or_eq_of_mem_set ht' with h | rfl
        · exact hn t' h
        · exact step_noSet (hn t htm)
      · intro t' ht'
        obtain ⟨k, hk, hkt⟩ := List.getElem_of_mem ht'
        by_cases hki : k = i
        · subst hki
          simp at hkt
          subst hkt
          exact step_pendOk (hp t htm)
        · have h1 : ts[k]? = some t' := by
            have : (ts.set i (stepTask mem t).2)[k]? = some t' := by
              rw [List.getElem?_eq_getElem hk, hkt]
            rwa [List.getElem?_set_ne (Ne.symm hki)] at this
          have hnone : t'.pending = none := by
            by_contra h
            exact hki (hpick k t' h1 h).symm
          obtain ⟨ops, p⟩ := t'
          simp only at hnone
          subst hnone
          unfold PendOk
          split
          · rename_i heq; simp at heq
          · rename_i heq; simp at heq
          · trivial
end NoOverlap

theorem addsTo_append {Cell β : Type _} [DecidableEq Cell] [AddCommMonoid β] (c : Cell)
    (a b : List (Op Cell β)) : addsTo c (a ++ b) = addsTo c a + addsTo c b := by
  induction a with
  | nil => simp [addsTo]
  | cons o a ih => cases o <;> simp [addsTo, ih, add_assoc]

theorem dense1_adds_input {β : Type _} [CommSemiring β] (g x w : List β) (n i c j : Nat) :
    addsTo (GCell.input j) ((List.range c).flatMap fun j =>
      [.add (.weight (i * n + j)) (vec g i * vec x j),
       .add (.input j) (vec g i * mat w n i j)])
      = if j < c then vec g i * mat w n i j else 0 := by
  induction c with
  | zero => simp [addsTo]
  | succ c ih =>
    rw [List.range_succ, List.flatMap_append, addsTo_append, ih]
    simp only [List.flatMap_cons, List.flatMap_nil, List.append_nil, addsTo, GCell.input.injEq,
      reduceCtorEq, if_false]
    by_cases hq : c = j
    · subst hq; simp
    · by_cases h : j < c
      · have : j < c + 1 := by omega
        simp [hq, h, this]
      · have : ¬ j < c + 1 := by omega
        simp [hq, h, this]

open Finset in
theorem sum_map_range {β : Type _} [AddCommMonoid β] (m : Nat) (f : Nat → β) :
    ((List.range m).map f).sum = ∑ i ∈ range m, f i := by
  induction m with
  | zero => simp
  | succ m ih => rw [List.range_succ, List.map_append, List.sum_append, ih, sum_range_succ]; simp

open Finset in
theorem dense1_run_input {β : Type _} [CommSemiring β] (g x w : List β) (n m : Nat)
    (mem : GCell → β) (sched : List Nat)
    (hs : NoOverlap sched mem (dense1Tasks g x w n m))
    (hf : Finished (run sched mem (dense1Tasks g x w n m)).2) {j : Nat} (hj : j < n) :
    (run sched mem (dense1Tasks g x w n m)).1 (.input j)
      = mem (.input j) + ∑ i ∈ range m, vec g i * mat w n i j := by
  rw [noOverlap_sum _ sched mem _ hs ?_ ?_ hf]
  · congr 1
    unfold dense1Tasks
    rw [tab, List.map_map, sum_map_range]
    simp only [Function.comp_def, dense1Task, addsTo, reduceCtorEq, if_false, zero_add,
      dense1_adds_input, if_pos hj]
  · intro t ht v hv
    obtain ⟨i, _, rfl⟩ := tab_mem (by unfold dense1Tasks at ht; exact ht)
    simp [dense1Task] at hv
  · intro t ht
    obtain ⟨i, _, rfl⟩ := tab_mem (by unfold dense1Tasks at ht; exact ht)
    simp [dense1Task, PendOk]

end Verif.Threads

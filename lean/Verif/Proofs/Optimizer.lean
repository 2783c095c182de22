import Verif.Model.Optimizer
import Verif.Spec.Optimizer
import Verif.Proofs.Tab
import Mathlib.Tactic.Ring
import Mathlib.Tactic.Linarith

namespace Verif.Opt
open Verif.Spec

variable {α : Type}

theorem paramCount_eq (k : Kind) : k.paramCount = k.blockSizes.sum := by
  cases k <;> simp [Kind.paramCount, Kind.blockSizes] <;> ring

/-- Position of element `off` of block `b`. -/
def position (sizes : List Nat) (b off : Nat) : Nat := (sizes.take b).sum + off

theorem locate_spec (k : Kind) {i : Nat} (h : i < k.paramCount) :
    ∃ b off n, locate k k.blockSizes i = .ok (b, off) ∧ k.blockSizes[b]? = some n ∧ off < n ∧
      position k.blockSizes b off = i := by
  unfold locate
  rw [if_neg (by omega)]
  cases k with
  | dense a o =>
    simp only [Kind.blockSizes, Kind.paramCount, Nat.add_mul] at h ⊢
    by_cases h1 : i < o * a
    · exact ⟨0, i, o * a, by rw [if_pos h1], rfl, h1, by simp [position]⟩
    · refine ⟨1, i - o * a, o, by rw [if_neg h1], rfl, ?_, ?_⟩
      · rw [Nat.mul_comm] at h1 ⊢; omega
      · simp [position]; omega
  | conv a c f =>
    simp only [Kind.blockSizes, Kind.paramCount] at h ⊢
    by_cases h1 : i < a * c * f
    · exact ⟨0, i, a * c * f, by rw [if_pos h1], rfl, h1, by simp [position]⟩
    · refine ⟨1, i - a * c * f, f, by rw [if_neg h1], rfl, by omega, ?_⟩
      simp [position]; omega
  | rnn a hd o =>
    have hh : i < a * hd + hd * hd + hd + hd * o + o := by
      calc i < (a + hd + 1) * hd + (hd + 1) * o := h
        _ = _ := by ring
    simp only [Kind.blockSizes]
    by_cases h0 : i < a * hd
    · exact ⟨0, i, a * hd, by rw [if_pos h0], rfl, h0, by simp [position]⟩
    · rw [if_neg h0]
      by_cases h1 : i < a * hd + hd * hd
      · refine ⟨1, i - a * hd, hd * hd, by rw [if_pos h1], rfl, by omega, ?_⟩
        simp [position]; omega
      · rw [if_neg h1]
        by_cases h2 : i < a * hd + hd * hd + hd
        · refine ⟨2, i - (a * hd + hd * hd), hd, by rw [if_pos h2], rfl, by omega, ?_⟩
          simp [position]; omega
        · rw [if_neg h2]
          by_cases h3 : i < a * hd + hd * hd + hd + hd * o
          · refine ⟨3, i - (a * hd + hd * hd + hd), hd * o, by rw [if_pos h3], rfl, by omega, ?_⟩
            simp [position]; omega
          · rw [if_neg h3]
            refine ⟨4, i - (a * hd + hd * hd + hd + hd * o), o, rfl, rfl, by omega, ?_⟩
            simp [position]; omega
  | other => simp [Kind.paramCount] at h

theorem flatten_pos (blocks : List (List α)) : ∀ {b off : Nat} {block : List α},
    blocks[b]? = some block → off < block.length →
    blocks.flatten[position (blocks.map List.length) b off]? = block[off]? := by
  induction blocks with
  | nil => intro b off block h; simp at h
  | cons x xs ih =>
    intro b off block h ho
    cases b with
    | zero =>
      simp at h; subst h
      simp only [position, List.take_zero, List.sum_nil, Nat.zero_add, List.flatten_cons]
      rw [List.getElem?_append_left ho]
    | succ b =>
      simp only [List.getElem?_cons_succ] at h
      simp only [position, List.map_cons, List.take_succ_cons, List.sum_cons, List.flatten_cons]
      rw [List.getElem?_append_right (by omega), ← ih h ho]
      congr 1
      unfold position
      omega

theorem flatten_set (blocks : List (List α)) : ∀ {b off : Nat} {block : List α} (v : α),
    blocks[b]? = some block → off < block.length →
    (blocks.set b (block.set off v)).flatten
      = blocks.flatten.set (position (blocks.map List.length) b off) v := by
  induction blocks with
  | nil => intro b off block v h; simp at h
  | cons x xs ih =>
    intro b off block v h ho
    cases b with
    | zero =>
      simp at h; subst h
      simp only [position, List.take_zero, List.sum_nil, Nat.zero_add, List.flatten_cons,
        List.set_cons_zero]
      rw [List.set_append_left _ _ ho]
    | succ b =>
      simp only [List.getElem?_cons_succ] at h
      simp only [List.set_cons_succ, List.flatten_cons, ih v h ho]
      unfold position
      rw [List.map_cons, List.take_succ_cons, List.sum_cons,
        List.set_append_right _ _ (by omega)]
      congr 2
      omega

theorem flatten_length (blocks : List (List α)) :
    blocks.flatten.length = (blocks.map List.length).sum := by
  rw [List.length_flatten]

/-- Blocks of the right sizes for a kind. -/
def Fits (k : Kind) (blocks : List (List α)) : Prop := blocks.map List.length = k.blockSizes

theorem fits_length {k : Kind} {blocks : List (List α)} (h : Fits k blocks) :
    blocks.flatten.length = k.paramCount := by
  rw [flatten_length, h, paramCount_eq]

theorem block_of_fits {k : Kind} {blocks : List (List α)} (h : Fits k blocks) {b n : Nat}
    (hb : k.blockSizes[b]? = some n) : ∃ block, blocks[b]? = some block ∧ block.length = n := by
  rw [← h, List.getElem?_map] at hb
  cases hx : blocks[b]? with
  | none => rw [hx] at hb; simp at hb
  | some block => rw [hx] at hb; simp at hb; exact ⟨block, rfl, hb⟩

theorem readAt_eq {k : Kind} {blocks : List (List α)} (h : Fits k blocks) {i : Nat}
    (hi : i < k.paramCount) : readAt k blocks i = rd blocks.flatten i := by
  obtain ⟨b, off, n, h1, h2, h3, h4⟩ := locate_spec k hi
  obtain ⟨block, h5, h6⟩ := block_of_fits h h2
  unfold readAt
  rw [show blocks.map List.length = k.blockSizes from h, h1, Exec.bind_ok]
  dsimp only
  rw [rd_of_some h5, Exec.bind_ok]
  have hp : position (blocks.map List.length) b off = i := by
    rw [show blocks.map List.length = k.blockSizes from h]; exact h4
  unfold rd
  rw [← flatten_pos blocks h5 (by omega), hp]

theorem writeAt_eq {k : Kind} {blocks : List (List α)} (h : Fits k blocks) {i : Nat} (v : α)
    (hi : i < k.paramCount) : ∃ blocks', writeAt k blocks i v = .ok blocks' ∧ Fits k blocks' ∧
      blocks'.flatten = blocks.flatten.set i v := by
  obtain ⟨b, off, n, h1, h2, h3, h4⟩ := locate_spec k hi
  obtain ⟨block, h5, h6⟩ := block_of_fits h h2
  have hb : b < blocks.length := (List.getElem?_eq_some_iff.mp h5).1
  refine ⟨blocks.set b (block.set off v), ?_, ?_, ?_⟩
  · unfold writeAt
    rw [show blocks.map List.length = k.blockSizes from h, h1, Exec.bind_ok]
    dsimp only
    rw [rd_of_some h5, Exec.bind_ok, wr_ok (by omega), Exec.bind_ok, wr_ok hb]
  · unfold Fits
    rw [← h, List.map_set, List.length_set]
    apply List.ext_getElem?
    intro j
    by_cases hj : b = j
    · subst hj
      rw [List.getElem?_set_self (by simpa using hb), List.getElem?_map, h5]; rfl
    · rw [List.getElem?_set_ne hj]
  · rw [flatten_set blocks v h5 (by omega)]
    congr 1
    rw [show blocks.map List.length = k.blockSizes from h]; exact h4

section loop
variable [Zero α] {σ : Type} (step : σ → α → α → σ × α)

/-- Optimizer state before the parameter `i` is treated. -/
def optAt (s : σ) (p g : Nat → α) : Nat → σ
  | 0 => s
  | i + 1 => (step (optAt s p g i) (p i) (g i)).1

theorem vec_set {l : List α} {i : Nat} {v : α} (h : i < l.length) (j : Nat) :
    vec (l.set i v) j = if j = i then v else vec l j := by
  unfold vec
  rw [List.getD_eq_getElem?_getD, List.getD_eq_getElem?_getD]
  by_cases hj : j = i
  · subst hj; rw [List.getElem?_set_self h, if_pos rfl]; rfl
  · rw [List.getElem?_set_ne (Ne.symm hj), if_neg hj]

theorem trainLoop_spec {kf kt : Kind} {N : Nat} (hkf : kf.paramCount = N) (hkt : kt.paramCount = N)
    (s : σ) (p g : Nat → α) : ∀ (n i : Nat) (st : TState σ α), i + n = N →
    Fits kt st.params → Fits kf st.grads → st.opt = optAt step s p g i →
    (∀ j, j < N → vec st.params.flatten j
      = if j < i then (step (optAt step s p g j) (p j) (g j)).2 else p j) →
    (∀ j, j < N → vec st.grads.flatten j = if j < i then 0 else g j) →
    ∃ st', trainLoop step kf kt n i st = ⟨st', .ok ()⟩ ∧ Fits kt st'.params ∧ Fits kf st'.grads ∧
      st'.opt = optAt step s p g N ∧
      (∀ j, j < N → vec st'.params.flatten j = (step (optAt step s p g j) (p j) (g j)).2) ∧
      (∀ j, j < N → vec st'.grads.flatten j = 0) := by
  intro n
  induction n with
  | zero =>
    intro i st hin h1 h2 h3 h4 h5
    have : i = N := by omega
    subst this
    refine ⟨st, rfl, h1, h2, h3, ?_, ?_⟩
    · intro j hj; rw [h4 j hj, if_pos hj]
    · intro j hj; rw [h5 j hj, if_pos hj]
  | succ n ih =>
    intro i st hin h1 h2 h3 h4 h5
    have hi : i < N := by omega
    have hpl : i < st.params.flatten.length := by rw [fits_length h1, hkt]; exact hi
    have hgl : i < st.grads.flatten.length := by rw [fits_length h2, hkf]; exact hi
    obtain ⟨P, hP1, hP2, hP3⟩ := writeAt_eq h1 (i := i)
      (step (optAt step s p g i) (p i) (g i)).2 (by omega)
    obtain ⟨G, hG1, hG2, hG3⟩ := writeAt_eq h2 (i := i) 0 (by omega)
    have hone : trainOne step kf kt i st
        = .ok ⟨(step (optAt step s p g i) (p i) (g i)).1, P, G⟩ := by
      unfold trainOne
      rw [readAt_eq h1 (by omega), rd_vec hpl, Exec.bind_ok, readAt_eq h2 (by omega), rd_vec hgl,
        Exec.bind_ok, h4 i hi, h5 i hi, if_neg (by omega), if_neg (by omega), h3]
      dsimp only
      rw [hP1, Exec.bind_ok, hG1, Exec.bind_ok]
      rfl
    unfold trainLoop
    rw [hone]
    dsimp only
    apply ih (i + 1) _ (by omega) hP2 hG2 rfl
    · intro j hj
      rw [hP3, vec_set hpl]
      by_cases h : j = i
      · subst h; rw [if_pos rfl, if_pos (by omega)]
      · rw [if_neg h, h4 j hj]
        by_cases h' : j < i
        · rw [if_pos h', if_pos (by omega)]
        · rw [if_neg h', if_neg (by omega)]
    · intro j hj
      rw [hG3, vec_set hgl]
      by_cases h : j = i
      · subst h; rw [if_pos rfl, if_pos (by omega)]
      · rw [if_neg h, h5 j hj]
        by_cases h' : j < i
        · rw [if_pos h', if_pos (by omega)]
        · rw [if_neg h', if_neg (by omega)]

theorem trainSelf_spec (l : PLayer α) (hp : Fits l.kind l.params) (hg : Fits l.kind l.grads)
    (s : σ) : ∃ l', trainSelf step s l
        = ⟨(optAt step s (vec l.params.flatten) (vec l.grads.flatten) l.kind.paramCount, l'), .ok ()⟩ ∧
      l'.kind = l.kind ∧ Fits l.kind l'.params ∧ Fits l.kind l'.grads ∧
      (∀ j, j < l.kind.paramCount → vec l'.params.flatten j
        = (step (optAt step s (vec l.params.flatten) (vec l.grads.flatten) j)
            (vec l.params.flatten j) (vec l.grads.flatten j)).2) ∧
      (∀ j, j < l.kind.paramCount → vec l'.grads.flatten j = 0) := by
  have key := trainLoop_spec step (kf := l.kind) (kt := l.kind) rfl rfl s (vec l.params.flatten)
    (vec l.grads.flatten) l.kind.paramCount 0 ⟨s, l.params, l.grads⟩ (by omega) hp hg rfl
    (fun j _ => by simp) (fun j _ => by simp)
  obtain ⟨st, h1, h2, h3, h4, h5, h6⟩ := key
  refine ⟨{ l with params := st.params, grads := st.grads }, ?_, rfl, h2, h3, h5, h6⟩
  unfold trainSelf
  rw [h1]
  dsimp only
  rw [h4]

theorem train_spec (f t : PLayer α) (hc : f.kind.paramCount = t.kind.paramCount)
    (hp : Fits t.kind t.params) (hg : Fits f.kind f.grads) (s : σ) :
    ∃ P G, train step s f t
        = ⟨(optAt step s (vec t.params.flatten) (vec f.grads.flatten) t.kind.paramCount,
            { f with grads := G }, { t with params := P }), .ok ()⟩ ∧
      Fits t.kind P ∧ Fits f.kind G ∧
      (∀ j, j < t.kind.paramCount → vec P.flatten j
        = (step (optAt step s (vec t.params.flatten) (vec f.grads.flatten) j)
            (vec t.params.flatten j) (vec f.grads.flatten j)).2) ∧
      (∀ j, j < t.kind.paramCount → vec G.flatten j = 0) := by
  have key := trainLoop_spec step (kf := f.kind) (kt := t.kind) hc rfl s (vec t.params.flatten)
    (vec f.grads.flatten) t.kind.paramCount 0 ⟨s, t.params, f.grads⟩ (by omega) hp hg rfl
    (fun j _ => by simp) (fun j _ => by simp)
  obtain ⟨st, h1, h2, h3, h4, h5, h6⟩ := key
  refine ⟨st.params, st.grads, ?_, h2, h3, h5, h6⟩
  unfold train
  rw [h1]
  dsimp only
  rw [h4]

end loop

/-! ### Positions are injective -/

theorem position_lt (sizes : List Nat) : ∀ {b off n : Nat}, sizes[b]? = some n → off < n →
    position sizes b off < sizes.sum := by
  induction sizes with
  | nil => intro b off n h; simp at h
  | cons x xs ih =>
    intro b off n h ho
    cases b with
    | zero => simp at h; subst h; simp [position]; omega
    | succ b =>
      simp only [List.getElem?_cons_succ] at h
      have := ih h ho
      simp only [position, List.take_succ_cons, List.sum_cons] at this ⊢
      omega

theorem position_inj (sizes : List Nat) : ∀ {b b' off off' n n' : Nat}, sizes[b]? = some n → off < n →
    sizes[b']? = some n' → off' < n' → position sizes b off = position sizes b' off' →
    b = b' ∧ off = off' := by
  induction sizes with
  | nil => intro b b' off off' n n' h; simp at h
  | cons x xs ih =>
    intro b b' off off' n n' h ho h' ho' he
    cases b with
    | zero =>
      cases b' with
      | zero => simpa [position] using he
      | succ b' =>
        simp at h; subst h
        simp only [position, List.take_succ_cons, List.sum_cons, List.take_zero, List.sum_nil] at he
        omega
    | succ b =>
      cases b' with
      | zero =>
        simp at h'; subst h'
        simp only [position, List.take_succ_cons, List.sum_cons, List.take_zero, List.sum_nil] at he
        omega
      | succ b' =>
        simp only [List.getElem?_cons_succ] at h h'
        have := ih h ho h' ho' (by
          simp only [position, List.take_succ_cons, List.sum_cons] at he ⊢
          omega)
        omega

theorem rd_flat_vec {k : Kind} {blocks : List (List ℝ)} (h : Fits k blocks) {i : Nat}
    (hi : i < k.paramCount) : readAt k blocks i = .ok (vec blocks.flatten i) := by
  rw [readAt_eq h hi, rd_vec (by rw [fits_length h]; exact hi)]

theorem readAt_throw {k : Kind} {blocks : List (List α)} {i : Nat} (hi : k.paramCount ≤ i) :
    readAt k blocks i = .throw "index overflow" := by
  unfold readAt locate
  rw [if_pos (by omega)]
  rfl

theorem writeAt_throw {k : Kind} {blocks : List (List α)} {i : Nat} (v : α) (hi : k.paramCount ≤ i) :
    writeAt k blocks i v = .throw "index overflow" := by
  unfold writeAt locate
  rw [if_pos (by omega)]
  rfl

end Verif.Opt

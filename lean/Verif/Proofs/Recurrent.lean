import Verif.Model.Recurrent
import Verif.Spec.Recurrent
import Verif.Proofs.Tab
import Verif.Proofs.Slide
import Mathlib.Tactic.Ring

namespace Verif.Rnn
open Verif.Spec Finset Verif.Slide

universe u
variable {α : Type u}

/-- A buffer of `T` blocks of length `H`. -/
def slots (T H : Nat) (F : Nat → Nat → α) : List α := tab (T * H) fun q => F (q / H) (q % H)

theorem slot_lt {T H s i : Nat} (hs : s < T) (hi : i < H) : s * H + i < T * H :=
  calc s * H + i < s * H + H := by omega
    _ = (s + 1) * H := by ring
    _ ≤ T * H := Nat.mul_le_mul_right _ hs

theorem slot_div {H s i : Nat} (hi : i < H) : (s * H + i) / H = s := by
  rw [Nat.mul_comm, Nat.mul_add_div (by omega), Nat.div_eq_of_lt hi, Nat.add_zero]

theorem slot_mod {H s i : Nat} (hi : i < H) : (s * H + i) % H = i := by
  rw [Nat.mul_comm, Nat.mul_add_mod, Nat.mod_eq_of_lt hi]

theorem slots_congr {T H : Nat} {F G : Nat → Nat → α}
    (h : ∀ s i, s < T → i < H → F s i = G s i) : slots T H F = slots T H G := by
  apply tab_congr
  intro q hq
  have hH : 0 < H := by
    rcases Nat.eq_zero_or_pos H with h0 | h0
    · subst h0; simp at hq
    · exact h0
  exact h _ _ (Nat.div_lt_of_lt_mul (by rw [Nat.mul_comm]; exact hq)) (Nat.mod_lt _ hH)

theorem rd_slots {T H s i : Nat} (F : Nat → Nat → α) (hs : s < T) (hi : i < H) :
    rd (slots T H F) (s * H + i) = .ok (F s i) := by
  unfold slots
  rw [rd_tab _ (slot_lt hs hi), slot_div hi, slot_mod hi]

theorem wr_slots {T H s i : Nat} (F : Nat → Nat → α) (v : α) (hs : s < T) (hi : i < H) :
    wr (slots T H F) (s * H + i) v = .ok (slots T H (upd F s (upd (F s) i v))) := by
  unfold slots
  rw [wr_tab _ _ (slot_lt hs hi)]
  congr 1
  apply tab_congr
  intro q hq
  have hH : 0 < H := by omega
  unfold upd
  by_cases h : q = s * H + i
  · subst h; rw [slot_div hi, slot_mod hi]; simp
  · rw [if_neg h]
    by_cases h1 : q / H = s
    · rw [if_pos h1, if_neg]
      · simp only [h1]
      · intro h2
        apply h
        rw [← h1, ← h2, Nat.mul_comm, Nat.div_add_mod]
    · rw [if_neg h1]

theorem tab_slots (H : Nat) (f : Nat → α) : tab H f = slots 1 H (fun _ => f) := by
  unfold slots
  rw [Nat.one_mul]
  apply tab_congr
  intro q hq
  rw [Nat.mod_eq_of_lt hq]

theorem slots_tab (H : Nat) (F : Nat → Nat → α) : slots 1 H F = tab H (F 0) := by
  unfold slots
  rw [Nat.one_mul]
  apply tab_congr
  intro q hq
  rw [Nat.mod_eq_of_lt hq, Nat.div_eq_of_lt hq]

/-- Any buffer of the right length is a buffer of blocks. -/
theorem eq_slots [Zero α] {l : List α} {T H : Nat} (h : l.length = T * H) :
    l = slots T H (mat l H) := by
  conv_lhs => rw [eq_tab l]
  unfold slots
  rw [h]
  apply tab_congr
  intro q hq
  rw [mat_eq_vec, Nat.mul_comm, Nat.div_add_mod]

theorem mat_slots [Zero α] {T H s i : Nat} (F : Nat → Nat → α) (hs : s < T) (hi : i < H) :
    mat (slots T H F) H s i = F s i := by
  unfold slots
  rw [mat_eq_vec, vec_tab _ (slot_lt hs hi), slot_div hi, slot_mod hi]

@[simp] theorem slots_length (T H : Nat) (F : Nat → Nat → α) : (slots T H F).length = T * H := by
  simp [slots]

/-- A loop that fills block `s`, cell by cell. -/
theorem fill_slot {T H s : Nat} (hs : s < T) {F : Nat → Nat → α} {r : Nat → α}
    {body : Nat → List α → Exec (List α)}
    (h : ∀ i f, i < H → f i = F s i → body i (slots T H (upd F s f))
      = .ok (slots T H (upd F s (upd f i (r i))))) :
    forUp H (slots T H F) body = .ok (slots T H (upd F s r)) := by
  have key := forUp_eq (n := H) (body := body)
    (S := fun k => slots T H (upd F s (fun i => if i < k then r i else F s i))) ?_
  · have e0 : slots T H (upd F s (fun i => if i < 0 then r i else F s i)) = slots T H F := by
      apply slots_congr
      intro a b _ _
      unfold upd
      split
      · next h => subst h; simp
      · rfl
    have e1 : slots T H (upd F s (fun i => if i < H then r i else F s i))
        = slots T H (upd F s r) := by
      apply slots_congr
      intro a b _ hb
      unfold upd
      split
      · simp [hb]
      · rfl
    rw [← e0, key, e1]
  · intro i hi
    rw [h i _ hi (by simp)]
    congr 1
    apply slots_congr
    intro a b _ _
    unfold upd
    split
    · by_cases hb : b = i
      · subst hb; simp
      · simp only [if_neg hb]
        by_cases hlt : b < i
        · rw [if_pos hlt, if_pos (by omega)]
        · rw [if_neg hlt, if_neg (by omega)]
    · rfl

theorem upd_upd' {β : Type _} (f : Nat → β) (i : Nat) (v w : β) :
    upd (upd f i v) i w = upd f i w := upd_upd f i v w

theorem matarrMulAt_eq [CommSemiring α] {T H s : Nat} (hs : s < T) {F : Nat → Nat → α}
    {m src : List α} {sOff cols : Nat} {x : Nat → α} (hm : m.length = H * cols)
    (hx : ∀ j, j < cols → rd src (sOff + j) = .ok (x j)) :
    matarrMulAt (slots T H F) (s * H) m src sOff H cols
      = .ok (slots T H (upd F s fun i => ∑ j ∈ range cols, mat m cols i j * x j)) := by
  unfold matarrMulAt
  apply fill_slot hs
  intro i f hi _
  rw [wr_slots _ _ hs hi, Exec.bind_ok, upd_self, upd_upd']
  have key := forUp_eq (n := cols) (body := fun j dst => do
      let w ← rd m (i * cols + j)
      let x ← rd src (sOff + j)
      let d ← rd dst (s * H + i)
      wr dst (s * H + i) (d + w * x))
    (S := fun k => slots T H (upd F s (upd f i (∑ j ∈ range k, mat m cols i j * x j)))) ?_
  · rw [← key]; simp
  · intro j hj
    have hlt : i * cols + j < m.length := by rw [hm]; exact slot_lt hi hj
    rw [rd_vec hlt, Exec.bind_ok, hx j hj, Exec.bind_ok, rd_slots _ hs hi, Exec.bind_ok,
      wr_slots _ _ hs hi, upd_self, upd_self, upd_upd', upd_upd, sum_range_succ, mat_eq_vec]

theorem arrSumAt_eq [Add α] {T H s : Nat} (hs : s < T) {F : Nat → Nat → α} {src : List α}
    {sOff : Nat} {x : Nat → α} (hx : ∀ j, j < H → rd src (sOff + j) = .ok (x j)) :
    arrSumAt (slots T H F) (s * H) src sOff H
      = .ok (slots T H (upd F s fun i => F s i + x i)) := by
  unfold arrSumAt
  apply fill_slot hs
  intro i f hi hf
  rw [rd_slots _ hs hi, Exec.bind_ok, hx i hi, Exec.bind_ok, wr_slots _ _ hs hi, upd_self, upd_upd',
    hf]

theorem mapAt_eq {T H s : Nat} (hs : s < T) {F : Nat → Nat → α} (act : α → α) :
    mapAt act (slots T H F) (s * H) H = .ok (slots T H (upd F s fun i => act (F s i))) := by
  unfold mapAt
  apply fill_slot hs
  intro i f hi hf
  rw [rd_slots _ hs hi, Exec.bind_ok, wr_slots _ _ hs hi, upd_self, upd_upd', hf]

theorem rd_off0 [Zero α] {l : List α} {n : Nat} (h : l.length = n) (j : Nat) (hj : j < n) :
    rd l (0 + j) = .ok (vec l j) := by rw [Nat.zero_add, rd_vec (by omega)]

theorem replicate_slots [Zero α] (H : Nat) : List.replicate H (0 : α) = slots 1 H (fun _ _ => 0) := by
  rw [slots_tab]; unfold tab; simp

/-- Sizes of the buffers of a layer agree. -/
structure Sized (l : Layer α) : Prop where
  wih : l.wih.length = l.hiddenSize * l.inputSize
  whh : l.whh.length = l.hiddenSize * l.hiddenSize
  who : l.who.length = l.outputSize * l.hiddenSize
  bh : l.bh.length = l.hiddenSize
  bo : l.bo.length = l.outputSize
  output : l.output.length = l.timeSteps * l.outputSize
  hidden : l.hidden.length = Nat.max l.timeSteps 1 * l.hiddenSize

/-- The parameters of a layer as a cell of the specification. -/
def cell [Zero α] (l : Layer α) : Cell α where
  n := l.inputSize
  h := l.hiddenSize
  o := l.outputSize
  wih := mat l.wih l.inputSize
  whh := mat l.whh l.hiddenSize
  who := mat l.who l.hiddenSize
  bh := vec l.bh
  bo := vec l.bo

/-- One time step; `p` is what the block read as the previous state holds after the product with the
input has been written. -/
theorem forward_step [CommSemiring α] (act : α → α) {l : Layer α} (hl : Sized l)
    {inputs : List α} (hx : inputs.length = l.timeSteps * l.inputSize) {t next : Nat}
    (ht : t < l.timeSteps) (hn : next < l.timeSteps)
    (F G : Nat → Nat → α) {p : Nat → α}
    (hp : upd F next (fun i => ∑ j ∈ range l.inputSize, mat l.wih l.inputSize i j *
      mat inputs l.inputSize t j) t = p) :
    (do
      let h ← matarrMulAt (slots l.timeSteps l.hiddenSize F) (next * l.hiddenSize) l.wih inputs
        (t * l.inputSize) l.hiddenSize l.inputSize
      let tmp ← matarrMulAt (List.replicate l.hiddenSize 0) 0 l.whh h (t * l.hiddenSize)
        l.hiddenSize l.hiddenSize
      let h ← arrSumAt h (next * l.hiddenSize) tmp 0 l.hiddenSize
      let h ← arrSumAt h (next * l.hiddenSize) l.bh 0 l.hiddenSize
      let h ← mapAt act h (next * l.hiddenSize) l.hiddenSize
      let o ← matarrMulAt (slots l.timeSteps l.outputSize G) (t * l.outputSize) l.who h
        (next * l.hiddenSize) l.outputSize l.hiddenSize
      let o ← arrSumAt o (t * l.outputSize) l.bo 0 l.outputSize
      pure (h, o) : Exec (List α × List α))
    = .ok (slots l.timeSteps l.hiddenSize
        (upd F next fun i => act ((cell l).pre (mat inputs l.inputSize t) p i)),
      slots l.timeSteps l.outputSize (upd G t fun i =>
        ∑ j ∈ range l.hiddenSize, mat l.who l.hiddenSize i j
          * act ((cell l).pre (mat inputs l.inputSize t) p j) + vec l.bo i)) := by
  rw [matarrMulAt_eq hn (x := mat inputs l.inputSize t) hl.wih (by
    intro j hj
    rw [rd_vec (by rw [hx]; exact slot_lt ht hj), mat_eq_vec]), Exec.bind_ok]
  rw [replicate_slots, show (0 : Nat) = 0 * l.hiddenSize by simp,
    matarrMulAt_eq (s := 0) (by omega) (x := p) hl.whh (by
    intro j hj
    rw [rd_slots _ ht hj, hp]), Exec.bind_ok, Nat.zero_mul]
  rw [arrSumAt_eq hn (x := fun i => ∑ j ∈ range l.hiddenSize, mat l.whh l.hiddenSize i j * p j) (by
    intro j hj
    rw [show 0 + j = 0 * l.hiddenSize + j by simp, rd_slots _ (by omega) hj, upd_self]),
    Exec.bind_ok, upd_upd', upd_self]
  rw [arrSumAt_eq hn (rd_off0 hl.bh), Exec.bind_ok, upd_upd', upd_self, mapAt_eq hn, Exec.bind_ok,
    upd_upd', upd_self]
  rw [matarrMulAt_eq ht (x := fun j => act ((cell l).pre (mat inputs l.inputSize t) p j)) hl.who
    (by
      intro j hj
      rw [rd_slots _ hn hj, upd_self]; rfl), Exec.bind_ok]
  rw [arrSumAt_eq ht (rd_off0 hl.bo), Exec.bind_ok, upd_upd', upd_self]
  rfl

/-- Blocks of the hidden buffer after the whole forward pass: block `t` holds `h_t`, except block 0
which holds the last state. -/
theorem forward_eq [CommSemiring α] (act : α → α) {l : Layer α} (hl : Sized l)
    (hT : l.timeSteps ≠ 1) {inputs : List α} (hx : inputs.length = l.timeSteps * l.inputSize) :
    l.forward act inputs = .ok { l with
      hidden := slots (Nat.max l.timeSteps 1) l.hiddenSize (fun s =>
        (cell l).state act (mat inputs l.inputSize) (vec l.hidden)
          (if s = 0 then l.timeSteps else s))
      output := slots l.timeSteps l.outputSize
        ((cell l).out act (mat inputs l.inputSize) (vec l.hidden)) } := by
  unfold Layer.forward
  rcases Nat.eq_zero_or_pos l.timeSteps with h0 | hpos
  · have e1 : l.hidden = slots (Nat.max l.timeSteps 1) l.hiddenSize (fun s =>
        (cell l).state act (mat inputs l.inputSize) (vec l.hidden)
          (if s = 0 then l.timeSteps else s)) := by
      conv_lhs => rw [eq_slots hl.hidden]
      apply slots_congr
      intro s i hs hi
      have : s = 0 := by rw [h0] at hs; simpa using hs
      subst this
      rw [h0]
      simp [Cell.state, mat_eq_vec]
    have e2 : l.output = slots l.timeSteps l.outputSize
        ((cell l).out act (mat inputs l.inputSize) (vec l.hidden)) := by
      apply List.eq_nil_of_length_eq_zero (by rw [hl.output, h0]; simp) |>.trans
      symm
      apply List.eq_nil_of_length_eq_zero
      rw [slots_length, h0]; simp
    rw [← e1, ← e2, h0]
    simp
  · have hT2 : 2 ≤ l.timeSteps := by omega
    have hmax : Nat.max l.timeSteps 1 = l.timeSteps := Nat.max_eq_left (by omega)
    rw [hmax]
    have hhid := hl.hidden
    rw [hmax] at hhid
    let st := (cell l).state act (mat inputs l.inputSize) (vec l.hidden)
    have key := forUp_eq (n := l.timeSteps)
      (S := fun k => (slots l.timeSteps l.hiddenSize (fun s =>
          if k = l.timeSteps ∧ s = 0 then st l.timeSteps
          else if s ≤ k then st s else mat l.hidden l.hiddenSize s),
        slots l.timeSteps l.outputSize (fun s => if s < k
          then (cell l).out act (mat inputs l.inputSize) (vec l.hidden) s
          else mat l.output l.outputSize s)))
      (body := fun t (s : List α × List α) => do
        let next := if t = l.timeSteps - 1 then 0 else t + 1
        let h := s.1
        let h ← matarrMulAt h (next * l.hiddenSize) l.wih inputs (t * l.inputSize) l.hiddenSize
          l.inputSize
        let tmp ← matarrMulAt (List.replicate l.hiddenSize 0) 0 l.whh h (t * l.hiddenSize)
          l.hiddenSize l.hiddenSize
        let h ← arrSumAt h (next * l.hiddenSize) tmp 0 l.hiddenSize
        let h ← arrSumAt h (next * l.hiddenSize) l.bh 0 l.hiddenSize
        let h ← mapAt act h (next * l.hiddenSize) l.hiddenSize
        let o ← matarrMulAt s.2 (t * l.outputSize) l.who h (next * l.hiddenSize) l.outputSize
          l.hiddenSize
        let o ← arrSumAt o (t * l.outputSize) l.bo 0 l.outputSize
        pure (h, o)) ?_
    · have e0 : (l.hidden, l.output) = (slots l.timeSteps l.hiddenSize (fun s =>
          if 0 = l.timeSteps ∧ s = 0 then st l.timeSteps
          else if s ≤ 0 then st s else mat l.hidden l.hiddenSize s),
        slots l.timeSteps l.outputSize (fun s => if s < 0
          then (cell l).out act (mat inputs l.inputSize) (vec l.hidden) s
          else mat l.output l.outputSize s)) := by
        congr 1
        · conv_lhs => rw [eq_slots hhid]
          apply slots_congr
          intro s i _ _
          rw [if_neg (by omega)]
          split
          · next h =>
            have : s = 0 := by omega
            subst this
            simp [st, Cell.state, mat_eq_vec]
          · rfl
        · conv_lhs => rw [eq_slots hl.output]
          apply slots_congr
          intro s i _ _
          rw [if_neg (by omega)]
      rw [e0, key, Exec.bind_ok]
      congr 2
      · dsimp only
        apply slots_congr
        intro s i hs _
        rw [if_pos hs]
      · dsimp only
        apply slots_congr
        intro s i hs _
        by_cases h : s = 0
        · rw [if_pos ⟨rfl, h⟩, if_pos h]
        · rw [if_neg (fun hh => h hh.2), if_pos (by omega), if_neg h]
    · intro t ht
      simp only []
      rw [forward_step act hl hx ht (by split <;> omega) (p := st t) _ _ (by
        rw [upd_ne _ _ (by split <;> omega)]
        rw [if_neg (by omega), if_pos le_rfl])]
      have hst : (fun i => act ((cell l).pre (mat inputs l.inputSize t) (st t) i)) = st (t + 1) := rfl
      rw [hst]
      congr 2
      · apply slots_congr
        intro s i hs hi
        unfold upd
        dsimp only
        by_cases hlast : t = l.timeSteps - 1
        · rw [if_pos hlast]
          by_cases h : s = 0
          · rw [if_pos h, if_pos ⟨by omega, h⟩, show t + 1 = l.timeSteps by omega]
          · rw [if_neg h, if_neg (show ¬(t = l.timeSteps ∧ s = 0) from fun hh => h hh.2),
              if_pos (show s ≤ t by omega),
              if_neg (show ¬(t + 1 = l.timeSteps ∧ s = 0) from fun hh => h hh.2),
              if_pos (show s ≤ t + 1 by omega)]
        · rw [if_neg hlast]
          by_cases h : s = t + 1
          · rw [if_pos h, if_neg (show ¬(t + 1 = l.timeSteps ∧ s = 0) by omega),
              if_pos (show s ≤ t + 1 by omega), h]
          · rw [if_neg h, if_neg (show ¬(t = l.timeSteps ∧ s = 0) by omega),
              if_neg (show ¬(t + 1 = l.timeSteps ∧ s = 0) by omega)]
            by_cases h2 : s ≤ t
            · rw [if_pos h2, if_pos (show s ≤ t + 1 by omega)]
            · rw [if_neg h2, if_neg (show ¬ s ≤ t + 1 by omega)]
      · apply slots_congr
        intro s i hs hi
        unfold upd
        by_cases h : s = t
        · subst h
          rw [if_pos rfl, if_pos (by omega)]
          rfl
        · rw [if_neg h]
          dsimp only
          by_cases h2 : s < t
          · rw [if_pos h2, if_pos (by omega)]
          · rw [if_neg h2, if_neg (by omega)]

/-- The case of a single time step: the block written is the block read. -/
theorem forward_eq_one [CommSemiring α] (act : α → α) {l : Layer α} (hl : Sized l)
    (hT : l.timeSteps = 1) {inputs : List α} (hx : inputs.length = l.inputSize) :
    l.forward act inputs = .ok { l with
      hidden := tab l.hiddenSize (fun i => act ((cell l).pre (vec inputs)
        (fun j => ∑ k ∈ range l.inputSize, mat l.wih l.inputSize j k * vec inputs k) i))
      output := tab l.outputSize (fun i => ∑ j ∈ range l.hiddenSize, mat l.who l.hiddenSize i j
          * act ((cell l).pre (vec inputs)
        (fun j => ∑ k ∈ range l.inputSize, mat l.wih l.inputSize j k * vec inputs k) j)
          + vec l.bo i) } := by
  have hv : mat inputs l.inputSize 0 = vec inputs := by funext i; rw [mat_eq_vec]; simp
  unfold Layer.forward
  have hh := hl.hidden
  have ho := hl.output
  rw [hT] at hh ho
  rw [show Nat.max 1 1 = 1 from rfl] at hh
  have e : (l.hidden, l.output) = (slots l.timeSteps l.hiddenSize (mat l.hidden l.hiddenSize),
      slots l.timeSteps l.outputSize (mat l.output l.outputSize)) := by
    rw [hT, ← eq_slots hh, ← eq_slots ho]
  rw [e]
  conv_lhs => arg 1; arg 1; rw [hT]
  rw [forUp_succ, forUp_zero, Exec.bind_ok]
  dsimp only
  rw [if_pos (by omega), forward_step act hl (by rw [hT, hx]; simp) (by omega) (by omega)
    (p := fun j => ∑ k ∈ range l.inputSize, mat l.wih l.inputSize j k * vec inputs k) _ _ (by
      rw [upd_self, hv]), Exec.bind_ok]
  simp only [hT, slots_tab, upd_self, hv]
  rfl

end Verif.Rnn

import Verif.Model.MemoryConcat
import Verif.Proofs.Memory
import Verif.Proofs.Concat
import Verif.Model.Dense

/-! Concatenation and separation on one memory do what they do on separate lists, if nothing overlaps. -/

namespace Verif.Mem

open Verif Verif.Spec

noncomputable section

/-- The list `l` is stored at position `p`. -/
def Holds (m : List ℝ) (p : Nat) (l : List ℝ) : Prop := ∀ i, i < l.length → m[p + i]? = l[i]?

/-- `m'` is `m` with the list `d` at `dst`. -/
structure At (m m' : List ℝ) (dst : Nat) (d : List ℝ) : Prop where
  len : m'.length = m.length
  fits : dst + d.length ≤ m.length
  here : Holds m' dst d
  rest : ∀ j, j < dst ∨ dst + d.length ≤ j → m'[j]? = m[j]?

theorem At.wr {m m' : List ℝ} {dst : Nat} {d d' : List ℝ} (h : At m m' dst d) {i : Nat} {v : ℝ}
    (hw : Verif.wr d i v = .ok d') : ∃ m'', Verif.wr m' (dst + i) v = .ok m'' ∧ At m m'' dst d' := by
  unfold Verif.wr at hw
  split at hw
  · rename_i hi
    cases hw
    have hf := h.fits
    refine ⟨_, wr_ok (by rw [h.len]; omega) v, by simp [h.len], by simpa using hf, ?_, ?_⟩
    · intro j hj
      rw [List.length_set] at hj
      by_cases e : j = i
      · subst e
        rw [List.getElem?_set_self (by rw [h.len]; omega), List.getElem?_set_self hi]
      · rw [List.getElem?_set_ne (by omega), List.getElem?_set_ne (by omega), h.here j hj]
    · intro j hj
      rw [List.length_set] at hj
      rw [List.getElem?_set_ne (by omega), h.rest j hj]
  · cases hw

theorem At.rd {m m' : List ℝ} {dst src : Nat} {d l : List ℝ} (h : At m m' dst d) (hl : Holds m src l)
    (o : NoOverlap dst d.length src l.length) {i : Nat} {v : ℝ} (hr : Verif.rd l i = .ok v) :
    Verif.rd m' (src + i) = .ok v := by
  unfold Verif.rd at hr ⊢
  cases e : l[i]? with
  | none => rw [e] at hr; cases hr
  | some a =>
    rw [e] at hr
    cases hr
    obtain ⟨hi, _⟩ := List.getElem?_eq_some_iff.mp e
    rw [h.rest _ (by rcases o with o | o <;> omega), hl i hi, e]

theorem bind_eq_ok {α β : Type _} {r : Exec α} {f : α → Exec β} {b : β} (h : r >>= f = .ok b) :
    ∃ a, r = .ok a ∧ f a = .ok b := by
  cases r with
  | ok a => exact ⟨a, rfl, h⟩
  | throw e => cases h
  | ub => cases h

/-- A loop that follows another one as long as that one goes on. -/
theorem forFrom_sim {σ τ : Type _} {f : Nat → σ → Exec σ} {g : Nat → τ → Exec τ} (Q : σ → τ → Prop)
    (step : ∀ i s t s', Q s t → f i s = .ok s' → ∃ t', g i t = .ok t' ∧ Q s' t') :
    ∀ (k i0 : Nat) (s s' : σ) (t : τ), Q s t → forFrom i0 k s f = .ok s' →
      ∃ t', forFrom i0 k t g = .ok t' ∧ Q s' t' := by
  intro k
  induction k with
  | zero => intro i0 s s' t h e; cases e; exact ⟨t, rfl, h⟩
  | succ k ih =>
    intro i0 s s' t h e
    simp only [forFrom] at e ⊢
    obtain ⟨s1, e1, e2⟩ := bind_eq_ok e
    obtain ⟨t1, e3, h1⟩ := step i0 s t s1 h e1
    obtain ⟨t2, e4, h2⟩ := ih (i0 + 1) s1 s' t1 h1 e2
    exact ⟨t2, by rw [e3, Exec.bind_ok, e4], h2⟩

theorem forUp_sim {σ τ : Type _} {f : Nat → σ → Exec σ} {g : Nat → τ → Exec τ} (Q : σ → τ → Prop)
    (step : ∀ i s t s', Q s t → f i s = .ok s' → ∃ t', g i t = .ok t' ∧ Q s' t')
    {n : Nat} {s s' : σ} {t : τ} (h : Q s t) (e : forUp n s f = .ok s') :
    ∃ t', forUp n t g = .ok t' ∧ Q s' t' := forFrom_sim Q step n 0 s s' t h e

variable {m : List ℝ} {dst src N : Nat} {l : List ℝ}

/-- The memory with a destination of `N` numbers. -/
def AtN (m : List ℝ) (dst N : Nat) (d m' : List ℝ) : Prop := At m m' dst d ∧ d.length = N

theorem copy_sim (hl : Holds m src l) (o : NoOverlap dst N src l.length) {d d' m' : List ℝ} (h : AtN m dst N d m')
    {p q : Nat} (e : (do let v ← rd l p; wr d q v) = .ok d') :
    ∃ m'', (do let v ← rd m' (src + p); wr m' (dst + q) v) = .ok m'' ∧ AtN m dst N d' m'' := by
  obtain ⟨v, e1, e2⟩ := bind_eq_ok e
  obtain ⟨m'', h1, h2⟩ := h.1.wr e2
  refine ⟨m'', ?_, h2, ?_⟩
  · rw [h.1.rd hl (by rw [h.2]; exact o) e1, Exec.bind_ok, h1]
  · rw [wr_length e2, h.2]
where
  wr_length {l l' : List ℝ} {i : Nat} {a : ℝ} (h : wr l i a = .ok l') : l'.length = l.length := by
    unfold wr at h
    split at h
    · cases h; simp
    · cases h

theorem append_sim (hl : Holds m src l) (o : NoOverlap dst N src l.length) {d d' m' : List ℝ} (h : AtN m dst N d m')
    {shape : List Nat} {base a ax off : Nat} (e : Concat.append d shape l base a ax off = .ok d') :
    ∃ m'', append dst shape (src + base) a ax off m' = .ok m'' ∧ AtN m dst N d' m'' := by
  unfold Concat.append at e
  unfold append
  obtain ⟨⟨it, tmp⟩, e1, e⟩ := bind_eq_ok e
  obtain ⟨dd, e2, e⟩ := bind_eq_ok e
  rw [e1, Exec.bind_ok]
  dsimp only
  rw [e2, Exec.bind_ok]
  dsimp only at e ⊢
  refine forUp_sim (AtN m dst N) ?_ h e
  intro i d1 m1 d2 h1 e1
  refine forUp_sim (AtN m dst N) ?_ h1 e1
  intro j d1 m1 d2 h1 e1
  obtain ⟨m2, a1, a2⟩ := copy_sim hl o h1 e1
  rw [← Nat.add_assoc] at a1
  exact ⟨m2, a1, a2⟩

theorem extract_sim (hl : Holds m src l) (o : NoOverlap dst N src l.length) {d d' m' : List ℝ} (h : AtN m dst N d m')
    {shape : List Nat} {base a ax off : Nat} (e : Concat.extract d base shape l a ax off = .ok d') :
    ∃ m'', extract (dst + base) shape src a ax off m' = .ok m'' ∧ AtN m dst N d' m'' := by
  unfold Concat.extract at e
  unfold extract
  obtain ⟨⟨it, tmp⟩, e1, e⟩ := bind_eq_ok e
  obtain ⟨dd, e2, e⟩ := bind_eq_ok e
  rw [e1, Exec.bind_ok]
  dsimp only
  rw [e2, Exec.bind_ok]
  dsimp only at e ⊢
  refine forUp_sim (AtN m dst N) ?_ h e
  intro i d1 m1 d2 h1 e1
  refine forUp_sim (AtN m dst N) ?_ h1 e1
  intro j d1 m1 d2 h1 e1
  obtain ⟨m2, a1, a2⟩ := copy_sim hl o h1 e1
  rw [← Nat.add_assoc dst] at a1
  exact ⟨m2, a1, a2⟩

theorem concatenate2_sim {src1 src2 : Nat} {l1 l2 : List ℝ} (h1 : Holds m src1 l1) (h2 : Holds m src2 l2)
    (o1 : NoOverlap dst N src1 l1.length) (o2 : NoOverlap dst N src2 l2.length) {d d' : List ℝ}
    (h : AtN m dst N d m) {s1 s2 : Shape3} {axis : Nat}
    (e : Concat.concatenate2 d l1 s1 l2 s2 axis = .ok d') :
    ∃ m', concatenate2 dst src1 s1 src2 s2 axis m = .ok m' ∧ AtN m dst N d' m' := by
  unfold Concat.concatenate2 at e
  unfold concatenate2
  by_cases ha : axis ≥ 3
  · rw [if_pos ha] at e
    cases e
  rw [if_neg ha] at e ⊢
  obtain ⟨u, e1, e⟩ := bind_eq_ok e
  rw [e1, Exec.bind_ok]
  dsimp only at e ⊢
  obtain ⟨d1, e2, e3⟩ := bind_eq_ok e
  obtain ⟨m1, a1, a2⟩ := append_sim h1 o1 h e2
  rw [Nat.add_zero] at a1
  rw [a1, Exec.bind_ok]
  exact append_sim h2 o2 a2 e3

theorem concatenateN_sim (hl : Holds m src l) (o : NoOverlap dst N src l.length) {d d' : List ℝ}
    (h : AtN m dst N d m) {shapes : List Shape3} {axis : Nat}
    (e : Concat.concatenateN d l shapes axis = .ok d') :
    ∃ m', concatenateN dst src shapes axis m = .ok m' ∧ AtN m dst N d' m' := by
  unfold Concat.concatenateN at e
  unfold concatenateN
  by_cases ha : axis ≥ 3
  · rw [if_pos ha] at e
    cases e
  rw [if_neg ha] at e ⊢
  obtain ⟨u, e1, e⟩ := bind_eq_ok e
  rw [e1, Exec.bind_ok]
  obtain ⟨s0, e1, e⟩ := bind_eq_ok e
  rw [e1, Exec.bind_ok]
  obtain ⟨ds, e1, e⟩ := bind_eq_ok e
  rw [e1, Exec.bind_ok]
  obtain ⟨⟨d1, x, y⟩, e1, e⟩ := bind_eq_ok e
  cases e
  obtain ⟨⟨m1, x1, y1⟩, a1, a2⟩ := forUp_sim
    (fun (s t : List ℝ × Nat × Nat) => AtN m dst N s.1 t.1 ∧ s.2 = t.2)
    (f := fun i (st : List ℝ × Nat × Nat) => do
      let s ← rd shapes i
      let dst ← Concat.append st.1 ds.dims l st.2.2 (s.get axis) axis st.2.1
      pure (dst, st.2.1 + s.get axis, st.2.2 + s.size))
    (g := fun i (st : List ℝ × Nat × Nat) => do
      let s ← rd shapes i
      let m ← append dst ds.dims (src + st.2.2) (s.get axis) axis st.2.1 st.1
      pure (m, st.2.1 + s.get axis, st.2.2 + s.size)) (by
    intro i s t s' hs e
    obtain ⟨sh, b1, e⟩ := bind_eq_ok e
    obtain ⟨d2, b2, e⟩ := bind_eq_ok e
    cases e
    obtain ⟨m2, c1, c2⟩ := append_sim hl o hs.1 b2
    refine ⟨(m2, t.2.1 + sh.get axis, t.2.2 + sh.size), ?_, c2, ?_⟩
    · rw [b1, Exec.bind_ok, ← hs.2, c1, Exec.bind_ok]
      rfl
    · rw [hs.2]) (s := (d, 0, 0)) (t := (m, 0, 0)) ⟨h, rfl⟩ e1
  exact ⟨m1, by rw [a1, Exec.bind_ok]; rfl, a2.1⟩

theorem separateN_sim (hl : Holds m src l) (o : NoOverlap dst N src l.length) {d d' : List ℝ}
    (h : AtN m dst N d m) {shapes : List Shape3} {axis : Nat}
    (e : Concat.separateN d shapes l axis = .ok d') :
    ∃ m', separateN dst shapes src axis m = .ok m' ∧ AtN m dst N d' m' := by
  unfold Concat.separateN at e
  unfold separateN
  by_cases ha : axis ≥ 3
  · rw [if_pos ha] at e
    cases e
  rw [if_neg ha] at e ⊢
  obtain ⟨u, e1, e⟩ := bind_eq_ok e
  rw [e1, Exec.bind_ok]
  obtain ⟨sa, e1, e⟩ := bind_eq_ok e
  rw [e1, Exec.bind_ok]
  obtain ⟨⟨d1, x, y⟩, e1, e⟩ := bind_eq_ok e
  cases e
  obtain ⟨⟨m1, x1, y1⟩, a1, a2⟩ := forUp_sim
    (fun (s t : List ℝ × Nat × Nat) => AtN m dst N s.1 t.1 ∧ s.2 = t.2)
    (f := fun i (st : List ℝ × Nat × Nat) => do
      let s ← rd shapes i
      let dst ← Concat.extract st.1 st.2.2 s.dims l sa axis st.2.1
      pure (dst, st.2.1 + s.get axis, st.2.2 + s.size))
    (g := fun i (st : List ℝ × Nat × Nat) => do
      let s ← rd shapes i
      let m ← extract (dst + st.2.2) s.dims src sa axis st.2.1 st.1
      pure (m, st.2.1 + s.get axis, st.2.2 + s.size)) (by
    intro i s t s' hs e
    obtain ⟨sh, b1, e⟩ := bind_eq_ok e
    obtain ⟨d2, b2, e⟩ := bind_eq_ok e
    cases e
    obtain ⟨m2, c1, c2⟩ := extract_sim hl o hs.1 b2
    refine ⟨(m2, t.2.1 + sh.get axis, t.2.2 + sh.size), ?_, c2, ?_⟩
    · rw [b1, Exec.bind_ok, ← hs.2, c1, Exec.bind_ok]
      rfl
    · rw [hs.2]) (s := (d, 0, 0)) (t := (m, 0, 0)) ⟨h, rfl⟩ e1
  exact ⟨m1, by rw [a1, Exec.bind_ok]; rfl, a2.1⟩

/-- Both destinations. -/
theorem separate2_sim {dst1 dst2 : Nat} {d1 d2 : List ℝ} (hl : Holds m src l)
    (o1 : NoOverlap dst1 d1.length src l.length) (o2 : NoOverlap dst2 d2.length src l.length)
    (o3 : NoOverlap dst1 d1.length dst2 d2.length)
    (h1 : At m m dst1 d1) (h2 : At m m dst2 d2) {s1 s2 : Shape3} {axis : Nat} {d' : List ℝ × List ℝ}
    (e : Concat.separate2 d1 s1 d2 s2 l axis = .ok d') :
    ∃ m1 m', separate2 dst1 s1 dst2 s2 src axis m = .ok m' ∧ AtN m dst1 d1.length d'.1 m1 ∧
      AtN m1 dst2 d2.length d'.2 m' := by
  unfold Concat.separate2 at e
  unfold separate2
  by_cases ha : axis ≥ 3
  · rw [if_pos ha] at e
    cases e
  rw [if_neg ha] at e ⊢
  obtain ⟨u, e1, e⟩ := bind_eq_ok e
  rw [e1, Exec.bind_ok]
  dsimp only at e ⊢
  obtain ⟨x1, b1, e⟩ := bind_eq_ok e
  obtain ⟨x2, b2, e⟩ := bind_eq_ok e
  cases e
  obtain ⟨m1, c1, c2, c3⟩ := extract_sim hl o1 ⟨h1, rfl⟩ b1
  rw [Nat.add_zero] at c1
  rw [c1, Exec.bind_ok]
  have hl1 : Holds m1 src l := by
    intro i hi
    rw [c2.rest _ (by rw [c3]; rcases o1 with o | o <;> omega), hl i hi]
  have h21 : At m1 m1 dst2 d2 := by
    refine ⟨rfl, by rw [c2.len]; exact h2.fits, ?_, fun _ _ => rfl⟩
    intro i hi
    rw [c2.rest _ (by rw [c3]; rcases o3 with o | o <;> omega), h2.here i hi]
  obtain ⟨m2, f1, f2⟩ := extract_sim hl1 o2 ⟨h21, rfl⟩ b2
  rw [Nat.add_zero] at f1
  exact ⟨m1, m2, f1, ⟨c2, c3⟩, f2⟩

/-! ### The backward pass of dense layers -/

/-- The memory with the three gradient arrays of a dense layer. -/
structure AtG (m : List ℝ) (ig wg bg n k : Nat) (s : Dense.Grads ℝ) (m' : List ℝ) : Prop where
  len : m'.length = m.length
  input : Holds m' ig s.input
  weight : Holds m' wg s.weight
  bias : Holds m' bg s.bias
  inputLen : s.input.length = n
  weightLen : s.weight.length = k * n
  biasLen : s.bias.length = k
  rest : ∀ j, (j < ig ∨ ig + n ≤ j) → (j < wg ∨ wg + k * n ≤ j) → (j < bg ∨ bg + k ≤ j) → m'[j]? = m[j]?

theorem Holds.rd {m l : List ℝ} {p i : Nat} {v : ℝ} (h : Holds m p l) (hr : Verif.rd l i = .ok v) :
    Verif.rd m (p + i) = .ok v := by
  unfold Verif.rd at hr ⊢
  cases e : l[i]? with
  | none => rw [e] at hr; cases hr
  | some a =>
    rw [e] at hr
    cases hr
    obtain ⟨hi, _⟩ := List.getElem?_eq_some_iff.mp e
    rw [h i hi, e]

theorem Holds.set {m l : List ℝ} {p i : Nat} (h : Holds m p l) (hi : p + i < m.length) (hl : i < l.length) (v : ℝ) :
    Holds (m.set (p + i) v) p (l.set i v) := by
  intro j hj
  rw [List.length_set] at hj
  by_cases e : j = i
  · subst e
    rw [List.getElem?_set_self hi, List.getElem?_set_self hl]
  · rw [List.getElem?_set_ne (by omega), List.getElem?_set_ne (by omega), h j hj]

theorem Holds.set_other {m l : List ℝ} {p q : Nat} (h : Holds m p l) (ho : q < p ∨ p + l.length ≤ q) (v : ℝ) :
    Holds (m.set q v) p l := by
  intro j hj
  rw [List.getElem?_set_ne (by omega), h j hj]

theorem wr_inv {l l' : List ℝ} {i : Nat} {v : ℝ} (h : wr l i v = .ok l') : i < l.length ∧ l' = l.set i v := by
  unfold wr at h
  split at h
  · rename_i hi
    cases h
    exact ⟨hi, rfl⟩
  · cases h

section Dense1

variable {ig wg bg n k : Nat} (fi : ig + n ≤ m.length) (fw : wg + k * n ≤ m.length) (fb : bg + k ≤ m.length)
  (o1 : NoOverlap ig n wg (k * n)) (o2 : NoOverlap ig n bg k) (o3 : NoOverlap wg (k * n) bg k)

include fi o1 o2 in
theorem AtG.wr_input {s : Dense.Grads ℝ} {m' x : List ℝ} (h : AtG m ig wg bg n k s m') {i : Nat} {v : ℝ}
    (e : wr s.input i v = .ok x) :
    ∃ m'', wr m' (ig + i) v = .ok m'' ∧ AtG m ig wg bg n k { s with input := x } m'' := by
  obtain ⟨hi, rfl⟩ := wr_inv e
  have hl := h.inputLen
  have h1 := h.weightLen
  have h2 := h.biasLen
  refine ⟨_, wr_ok (by rw [h.len]; omega) v, by simp [h.len], h.input.set (by rw [h.len]; omega) hi v,
    h.weight.set_other (by rw [h1]; rcases o1 with o | o <;> omega) v,
    h.bias.set_other (by rw [h2]; rcases o2 with o | o <;> omega) v, by simp [hl], h1, h2, fun j a b c => ?_⟩
  rw [List.getElem?_set_ne (by omega), h.rest j a b c]

include fw o1 o3 in
theorem AtG.wr_weight {s : Dense.Grads ℝ} {m' x : List ℝ} (h : AtG m ig wg bg n k s m') {i : Nat} {v : ℝ}
    (e : wr s.weight i v = .ok x) :
    ∃ m'', wr m' (wg + i) v = .ok m'' ∧ AtG m ig wg bg n k { s with weight := x } m'' := by
  obtain ⟨hi, rfl⟩ := wr_inv e
  have hl := h.inputLen
  have h1 := h.weightLen
  have h2 := h.biasLen
  refine ⟨_, wr_ok (by rw [h.len]; omega) v, by simp [h.len],
    h.input.set_other (by rw [hl]; rcases o1 with o | o <;> omega) v, h.weight.set (by rw [h.len]; omega) hi v,
    h.bias.set_other (by rw [h2]; rcases o3 with o | o <;> omega) v, hl, by simp [h1], h2, fun j a b c => ?_⟩
  rw [List.getElem?_set_ne (by omega), h.rest j a b c]

include fb o2 o3 in
theorem AtG.wr_bias {s : Dense.Grads ℝ} {m' x : List ℝ} (h : AtG m ig wg bg n k s m') {i : Nat} {v : ℝ}
    (e : wr s.bias i v = .ok x) :
    ∃ m'', wr m' (bg + i) v = .ok m'' ∧ AtG m ig wg bg n k { s with bias := x } m'' := by
  obtain ⟨hi, rfl⟩ := wr_inv e
  have hl := h.inputLen
  have h1 := h.weightLen
  have h2 := h.biasLen
  refine ⟨_, wr_ok (by rw [h.len]; omega) v, by simp [h.len],
    h.input.set_other (by rw [hl]; rcases o2 with o | o <;> omega) v,
    h.weight.set_other (by rw [h1]; rcases o3 with o | o <;> omega) v, h.bias.set (by rw [h.len]; omega) hi v,
    hl, h1, by simp [h2], fun j a b c => ?_⟩
  rw [List.getElem?_set_ne (by omega), h.rest j a b c]

/-- An array that overlaps none of the three. -/
def Apart (ig wg bg n k p len : Nat) : Prop :=
  NoOverlap ig n p len ∧ NoOverlap wg (k * n) p len ∧ NoOverlap bg k p len

theorem AtG.rd_other {s : Dense.Grads ℝ} {m' l : List ℝ} (h : AtG m ig wg bg n k s m') {p i : Nat} {v : ℝ}
    (hl : Holds m p l) (ha : Apart ig wg bg n k p l.length) (e : rd l i = .ok v) : rd m' (p + i) = .ok v := by
  have hi : i < l.length := by
    unfold rd at e
    cases e' : l[i]? with
    | none => rw [e'] at e; cases e
    | some a => exact (List.getElem?_eq_some_iff.mp e').1
  obtain ⟨a1, a2, a3⟩ := ha
  have := hl.rd e
  unfold rd at this ⊢
  rw [h.rest _ (by rcases a1 with o | o <;> omega) (by rcases a2 with o | o <;> omega)
    (by rcases a3 with o | o <;> omega)]
  exact this

include fi fw fb o1 o2 o3 in
theorem dense1_sim {gr x w : Nat} {lg lx lw : List ℝ} (hg : Holds m gr lg) (hx : Holds m x lx) (hw : Holds m w lw)
    (ag : Apart ig wg bg n k gr lg.length) (ax : Apart ig wg bg n k x lx.length)
    (aw : Apart ig wg bg n k w lw.length) {s s' : Dense.Grads ℝ} (h : AtG m ig wg bg n k s m)
    (e : Dense.dense1 s lg lx lw n k = .ok s') :
    ∃ m', dense1 ig wg bg gr x w n k m = .ok m' ∧ AtG m ig wg bg n k s' m' := by
  unfold Dense.dense1 at e
  unfold dense1
  obtain ⟨z, e1, e⟩ := bind_eq_ok e
  unfold Dense.fill at e1
  obtain ⟨m1, a1, a2⟩ := forUp_sim (fun (l m' : List ℝ) => AtG m ig wg bg n k { s with input := l } m')
    (f := fun i dst => wr dst i (0 : ℝ)) (g := fun j m => wr m (ig + j) 0) (t := m) (by
      intro i l m' l' hl e
      exact AtG.wr_input fi o1 o2 hl e) h e1
  rw [a1, Exec.bind_ok]
  refine forUp_sim (AtG m ig wg bg n k) ?_ a2 e
  intro i s m1 s' h e
  obtain ⟨b, b1, e⟩ := bind_eq_ok e
  obtain ⟨g, b2, e⟩ := bind_eq_ok e
  obtain ⟨b', b3, e⟩ := bind_eq_ok e
  obtain ⟨m2, c1, c2⟩ := h.wr_bias fb o2 o3 b3
  rw [h.bias.rd b1, Exec.bind_ok, h.rd_other hg ag b2, Exec.bind_ok, c1, Exec.bind_ok]
  refine forUp_sim (AtG m ig wg bg n k) ?_ c2 e
  intro j s m1 s' h e
  obtain ⟨d, b1, e⟩ := bind_eq_ok e
  obtain ⟨g, b2, e⟩ := bind_eq_ok e
  obtain ⟨v, b3, e⟩ := bind_eq_ok e
  obtain ⟨y, b4, e⟩ := bind_eq_ok e
  obtain ⟨d', b5, e⟩ := bind_eq_ok e
  obtain ⟨u, b6, e⟩ := bind_eq_ok e
  obtain ⟨y', b7, e⟩ := bind_eq_ok e
  cases e
  obtain ⟨m2, c1, c2⟩ := h.wr_weight fw o1 o3 b4
  obtain ⟨m3, f1, f2⟩ := c2.wr_input fi o1 o2 b7
  refine ⟨m3, ?_, f2⟩
  rw [h.weight.rd b1, Exec.bind_ok, h.rd_other hg ag b2, Exec.bind_ok, h.rd_other hx ax b3, Exec.bind_ok, c1,
    Exec.bind_ok, c2.input.rd b5, Exec.bind_ok, c2.rd_other hg ag b2, Exec.bind_ok, c2.rd_other hw aw b6,
    Exec.bind_ok, f1]

end Dense1

/-- Part of a memory. -/
def slice (m : List ℝ) (p n : Nat) : List ℝ := (m.drop p).take n

theorem slice_length {m : List ℝ} {p n : Nat} (h : p + n ≤ m.length) : (slice m p n).length = n := by
  simp [slice]
  omega

theorem slice_get {m : List ℝ} {p n i : Nat} (hi : i < n) : (slice m p n)[i]? = m[p + i]? := by
  unfold slice
  rw [List.getElem?_take_of_lt hi, List.getElem?_drop]

theorem slice_holds {m : List ℝ} {p n : Nat} (h : p + n ≤ m.length) : Holds m p (slice m p n) := by
  intro i hi
  rw [slice_length h] at hi
  rw [slice_get hi]

theorem slice_at {m : List ℝ} {p n : Nat} (h : p + n ≤ m.length) : AtN m p n (slice m p n) m :=
  ⟨⟨rfl, by rw [slice_length h]; exact h, slice_holds h, fun _ _ => rfl⟩, slice_length h⟩

theorem AtN.len {d m' : List ℝ} (h : AtN m dst N d m') : m'.length = m.length := h.1.len

theorem AtN.unchanged {d m' : List ℝ} (h : AtN m dst N d m') (j : Nat) (hj : j < dst ∨ dst + N ≤ j) :
    m'[j]? = m[j]? := h.1.rest j (by rw [h.2]; exact hj)

theorem AtN.copied_dst {a d m' : List ℝ} {p n i q : Nat} (h : AtN m dst N d m') (hp : p + n ≤ a.length)
    (hi : i < N) (e : d[i]? = (slice a p n)[q]?) : m'[dst + i]? = a[p + q]? := by
  have hd : i < d.length := by rw [h.2]; exact hi
  have hq : q < n := by
    rw [List.getElem?_eq_getElem hd] at e
    obtain ⟨hq, _⟩ := List.getElem?_eq_some_iff.mp e.symm
    rwa [slice_length hp] at hq
  rw [h.1.here i hd, e, slice_get hq]

theorem AtN.copied_src {a d m' : List ℝ} {p n i q : Nat} (h : AtN m dst N d m') (hp : p + n ≤ a.length)
    (hq : q < n) (e : d[i]? = (slice a p n)[q]?) : m'[dst + i]? = a[p + q]? := by
  have hs : q < (slice a p n).length := by rw [slice_length hp]; exact hq
  have hi : i < N := by
    rw [List.getElem?_eq_getElem hs] at e
    obtain ⟨hi, _⟩ := List.getElem?_eq_some_iff.mp e
    rwa [h.2] at hi
  exact h.copied_dst hp hi e

theorem within {shapes : List Shape3} {x i j k : Nat} (hx : x < shapes.length) (h : InCube shapes[x] i j k) :
    volume (shapes.take x) + cellIdx shapes[x] i j k < volume shapes := by
  have h1 := Concat.cellIdx_lt h
  have h2 := Concat.volume_take_succ shapes hx
  have h3 := Concat.volume_take_le shapes (x + 1)
  omega

theorem Holds.cell {l : List ℝ} {p i : Nat} (h : Holds m p l) (hi : i < l.length) : Spec.cell m p i = vec l i := by
  unfold Spec.cell vec
  rw [List.getD_eq_getElem?_getD, List.getD_eq_getElem?_getD, h i hi]

theorem vec_slice {p n i : Nat} (hi : i < n) : vec (slice m p n) i = Spec.cell m p i := by
  unfold Spec.cell vec
  rw [List.getD_eq_getElem?_getD, List.getD_eq_getElem?_getD, slice_get hi]

end

end Verif.Mem

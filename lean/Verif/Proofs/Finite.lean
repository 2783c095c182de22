import Verif.Proofs.FloatRun
import Verif.Proofs.Loss
import Verif.Proofs.Double

/-
Ranges of floating-point computations: which results are finite whatever the operands.
-/

namespace Verif.Float
open Spec Slide

variable {A : Arith}

theorem rnd_nonneg {x : ℝ} (h : 0 ≤ x) : 0 ≤ A.rnd x := by
  have := A.mono _ _ h
  rwa [A.zero] at this

theorem rnd_nonpos {x : ℝ} (h : x ≤ 0) : A.rnd x ≤ 0 := by
  have := A.mono _ _ h
  rwa [A.zero] at this

/-- Rounding does not leave an interval around zero whose ends are numbers of the format. -/
theorem abs_rnd_le {x y : ℝ} (hy : A.rnd y = y) (h : |x| ≤ y) : |A.rnd x| ≤ y := by
  rw [abs_le] at h ⊢
  have h1 := A.mono _ _ h.1
  have h2 := A.mono _ _ h.2
  rw [A.neg, hy] at h1
  rw [hy] at h2
  exact ⟨h1, h2⟩

theorem round_bounded {x y : ℝ} (hy : A.rnd y = y) (hb : y < A.big) (h : |x| ≤ y) :
    ∃ s, Fl.round A x = .fin s ∧ |s| ≤ y := by
  have := abs_rnd_le hy h
  refine ⟨A.rnd x, ?_, this⟩
  unfold Fl.round
  rw [if_pos (lt_of_le_of_lt this hb)]

/-- A finite number between zero and one. -/
def Unit01 (y : Fl A) : Prop := ∃ s, y = .fin s ∧ 0 ≤ s ∧ s ≤ 1

/-- A number that is at least `c`, possibly infinite. -/
def AtLeast (c : ℝ) (y : Fl A) : Prop := y = .inf false ∨ ∃ s, y = .fin s ∧ c ≤ s

theorem round_unit {x : ℝ} (h0 : 0 ≤ x) (h1 : x ≤ 1) : Unit01 (Fl.round A x) := by
  obtain ⟨s, e, hs⟩ := round_bounded (A := A) A.one A.one_lt_big (abs_le.mpr ⟨by linarith, h1⟩)
  have h := rnd_nonneg (A := A) h0
  have e' := e
  unfold Fl.round at e'
  split at e'
  · cases e'
    exact ⟨_, e, h, (abs_le.mp hs).2⟩
  · cases e'

theorem round_atLeast {x c : ℝ} (hc : A.rnd c = c) (h0 : 0 ≤ c) (h : c ≤ x) : AtLeast c (Fl.round A x) := by
  have := A.mono _ _ h
  rw [hc] at this
  unfold Fl.round
  split
  · exact .inr ⟨_, rfl, this⟩
  · left
    have : ¬ x < 0 := by linarith
    simp [this]

theorem recip_unit {y : Fl A} (h : AtLeast 1 y) : Unit01 (1 / y) := by
  rcases h with rfl | ⟨s, rfl, hs⟩
  · exact ⟨0, rfl, le_rfl, zero_le_one⟩
  · have : (1 : Fl A) / .fin s = .round A (1 / s) := fl_div 1 s (by linarith)
    rw [this]
    refine round_unit (by positivity) ?_
    rw [div_le_one (by linarith)]
    exact hs

theorem add_atLeast {y z : Fl A} {c d k : ℝ} (hy : AtLeast c y) (hz : ∃ s, z = .fin s ∧ d ≤ s)
    (hk : A.rnd k = k) (h0 : 0 ≤ k) (h : k ≤ c + d) : AtLeast k (y + z) := by
  obtain ⟨t, rfl, ht⟩ := hz
  rcases hy with rfl | ⟨s, rfl, hs⟩
  · exact .inl rfl
  · rw [fl_add]
    exact round_atLeast hk h0 (by linarith)

theorem mul_unit {y z : Fl A} (hy : Unit01 y) (hz : Unit01 z) : Unit01 (y * z) := by
  obtain ⟨s, rfl, h1, h2⟩ := hy
  obtain ⟨t, rfl, h3, h4⟩ := hz
  rw [fl_mul]
  exact round_unit (by positivity) (by nlinarith)

/-- The exponential of a number that is not positive, `-inf` included. -/
theorem exp_unit (L : Lib A) {x : Fl A} (h : x = .inf true ∨ ∃ s, x = .fin s ∧ s ≤ 0) : Unit01 (L.expF x) := by
  rcases h with rfl | ⟨s, rfl, hs⟩
  · exact ⟨0, rfl, le_rfl, zero_le_one⟩
  · have h0 := L.exp_nonneg s
    have h1 := L.exp_le_one s hs
    refine ⟨L.exp s, ?_, h0, h1⟩
    show (if _ then _ else _) = _
    rw [if_pos]
    rw [abs_of_nonneg h0]
    exact lt_of_le_of_lt h1 A.one_lt_big

theorem exp_atLeast (L : Lib A) {x : Fl A} (h : x ≠ .nan) : AtLeast 0 (L.expF x) := by
  rcases x with x | _ | _
  · show AtLeast 0 (if _ then _ else _)
    split
    · exact .inr ⟨_, rfl, L.exp_nonneg x⟩
    · exact .inl rfl
  · next b => cases b
              · exact .inl rfl
              · exact .inr ⟨0, rfl, le_rfl⟩
  · exact absurd rfl h

theorem expF_zero (L : Lib A) : L.expF (.fin 0) = .fin 1 := by
  show (if _ then _ else _) = _
  rw [L.exp_zero, if_pos]
  rw [abs_one]
  exact A.one_lt_big

theorem fl_sub_nonpos {x y : ℝ} (h : x ≤ y) :
    (.fin x - .fin y : Fl A) = .inf true ∨ ∃ s, (.fin x - .fin y : Fl A) = .fin s ∧ s ≤ 0 := by
  rw [fl_sub]
  unfold Fl.round
  split
  · exact .inr ⟨_, rfl, rnd_nonpos (by linarith)⟩
  · next hb =>
    left
    have : x - y < 0 := by
      rcases lt_or_eq_of_le (sub_nonpos.mpr h) with h | h
      · exact h
      · rw [h, A.zero, abs_zero] at hb
        exact absurd (lt_trans one_pos A.one_lt_big) hb
    simp [this]

theorem sub_self' (x : ℝ) : (.fin x - .fin x : Fl A) = .fin 0 := by
  rw [fl_sub, sub_self]
  unfold Fl.round
  rw [A.zero, abs_zero, if_pos (lt_trans one_pos A.one_lt_big)]

theorem runMax_fin (v : Nat → ℝ) (n : Nat) : runMax (fun i => (.fin (v i) : Fl A)) n = .fin (runMax v n) := by
  induction n with
  | zero => rfl
  | succ n ih =>
    cases n with
    | zero => rfl
    | succ n =>
      rw [runMax_step (n := n + 1) _ (by omega), runMax_step (n := n + 1) v (by omega), ih]
      by_cases h : runMax v (n + 1) < v (n + 1)
      · rw [if_pos ((fl_lt _ _).mpr h), if_pos h]
      · rw [if_neg (fun h' => h ((fl_lt _ _).mp h')), if_neg h]

theorem fins_tab (n : Nat) (f : Nat → ℝ) : fins A (tab n f) = tab n fun j => .fin (f j) := by
  unfold fins tab
  rw [List.map_map]
  rfl

/-- A sum of numbers between zero and one with a one among them. -/
theorem sum_atLeast_one {n k : Nat} {t : Nat → Fl A} (ht : ∀ j, j < n → Unit01 (t j)) (hk : k < n)
    (h1 : t k = .fin 1) : AtLeast 1 (ordSum 0 n t) := by
  have key : ∀ m, m ≤ n → AtLeast 0 (ordSum 0 m t) ∧ (k < m → AtLeast 1 (ordSum 0 m t)) := by
    intro m
    induction m with
    | zero => exact fun _ => ⟨.inr ⟨0, rfl, le_rfl⟩, fun h => absurd h (by omega)⟩
    | succ m ih =>
      intro hm
      obtain ⟨i0, i1⟩ := ih (by omega)
      obtain ⟨s, e, hs, _⟩ := ht m (by omega)
      refine ⟨add_atLeast i0 ⟨s, e, hs⟩ A.zero le_rfl (by norm_num), fun h => ?_⟩
      by_cases hkm : k = m
      · subst hkm
        exact add_atLeast i0 ⟨1, h1, le_rfl⟩ A.one zero_le_one (by norm_num)
      · exact add_atLeast (i1 (by omega)) ⟨s, e, hs⟩ A.one zero_le_one (by norm_num)
  exact (key n le_rfl).2 hk

/-- What the stable softmax computes on finite numbers. -/
theorem stable_finite (L : Lib A) {dst : List (Fl A)} {x : List ℝ} {n : Nat} (hd : dst.length = n) (hn : 0 < n)
    (hx : n ≤ x.length) :
    ∃ (v : Nat → ℝ) (S : Fl A) (inv : ℝ) (z : Nat → ℝ), AtLeast 1 S ∧ 1 / S = .fin inv ∧ 0 ≤ inv ∧ inv ≤ 1 ∧
      S = ordSum 0 n (fun j => .fin (v j)) ∧
      stableSoftmaxF L dst (fins A x) n = .ok (fins A (tab n z)) ∧
      (∀ j, j < n → 0 ≤ v j ∧ v j ≤ 1 ∧ z j = A.rnd (v j * inv) ∧ 0 ≤ z j ∧ z j ≤ 1) ∧
      ∀ k, k < n → (∀ j, j < n → vec x j ≤ vec x k) → v k = 1 ∧
        ∀ j, j < n → L.expF (.fin (vec x j) - .fin (vec x k)) = .fin (v j) := by
  have hm : runMax (vec (fins A x)) n = .fin (runMax (vec x) n) := by
    rw [← runMax_fin]
    congr 1
    funext i
    exact vec_fins x i
  obtain ⟨⟨k, hk, hk'⟩, hmax⟩ := runMax_spec (vec x) hn
  have ht : ∀ j, j < n → Unit01 (L.expF (vec (fins A x) j - runMax (vec (fins A x)) n)) := by
    intro j hj
    rw [hm, vec_fins]
    exact exp_unit L (fl_sub_nonpos (hmax j hj))
  have ht' : ∀ j, ∃ s, j < n → L.expF (vec (fins A x) j - runMax (vec (fins A x)) n) = .fin s ∧ 0 ≤ s ∧ s ≤ 1 := by
    intro j
    by_cases hj : j < n
    · obtain ⟨s, h⟩ := ht j hj
      exact ⟨s, fun _ => h⟩
    · exact ⟨0, fun h => absurd h hj⟩
  choose v hv using ht'
  have hone : ∀ k, k < n → (∀ j, j < n → vec x j ≤ vec x k) → v k = 1 := by
    intro k' hk'' hge
    have e : vec x k' = runMax (vec x) n := le_antisymm (hmax k' hk'') (by rw [hk']; exact hge k hk)
    have := (hv k' hk'').1
    rw [hm, vec_fins, e, sub_self', expF_zero] at this
    injection this with this
    exact this.symm
  have hS : AtLeast 1 (ordSum (0 : Fl A) n fun j => .fin (v j)) := by
    refine sum_atLeast_one (k := k) (fun j hj => ⟨v j, rfl, (hv j hj).2⟩) hk ?_
    rw [hone k hk fun j hj => by rw [← hk']; exact hmax j hj]
  obtain ⟨inv, hinv, i0, i1⟩ := recip_unit hS
  have hz : ∀ j, j < n → Fl.round A (v j * inv) = .fin (A.rnd (v j * inv)) ∧ 0 ≤ A.rnd (v j * inv) ∧
      A.rnd (v j * inv) ≤ 1 := by
    intro j hj
    obtain ⟨-, h1, h2⟩ := hv j hj
    obtain ⟨s, e, h3, h4⟩ := round_unit (A := A) (x := v j * inv) (by positivity) (by nlinarith)
    have e' := e
    unfold Fl.round at e'
    split at e'
    · cases e'; exact ⟨e, h3, h4⟩
    · cases e'
  refine ⟨v, _, inv, fun j => A.rnd (v j * inv), hS, hinv, i0, i1, rfl, ?_, ?_, fun k' hk'' hge => ⟨hone k' hk'' hge, ?_⟩⟩
  · rw [stableSoftmaxF_eq L hn hd (by simpa [fins] using hx)]
    have hsum : (ordSum (0 : Fl A) n fun j => L.expF (vec (fins A x) j - runMax (vec (fins A x)) n))
        = ordSum 0 n fun j => .fin (v j) := by
      apply ordSum_congr
      intro j hj
      exact (hv j hj).1
    rw [hsum, hinv]
    congr 1
    rw [fins_tab]
    apply tab_congr
    intro j hj
    rw [(hv j hj).1, fl_mul, (hz j hj).1]
  · intro j hj
    exact ⟨(hv j hj).2.1, (hv j hj).2.2, rfl, (hz j hj).2⟩
  · intro j hj
    have e : vec x k' = runMax (vec x) n := le_antisymm (hmax k' hk'') (by rw [hk']; exact hge k hk)
    have := (hv j hj).1
    rwa [hm, vec_fins, ← e] at this

/-! ### Losses -/

theorem crossEntropyF_eq (L : Lib A) {y yh : List (Fl A)} {n : Nat} (hy : n ≤ y.length) (hh : n ≤ yh.length) :
    crossEntropyF L y yh n = .ok (ordSum 0 n fun i => crossEntropySF L (vec y i) (vec yh i)) := by
  unfold crossEntropyF
  refine forUp_steps (F := fun k => ordSum (0 : Fl A) k fun i => crossEntropySF L (vec y i) (vec yh i)) rfl ?_
  intro i hi
  rw [rd_vec (by omega), Exec.bind_ok, rd_vec (by omega), Exec.bind_ok]
  rfl

theorem crossEntropy1F_eq {dst y yh : List (Fl A)} {norm : Fl A} {n : Nat} (hd : dst.length = n)
    (hy : n ≤ y.length) (hh : n ≤ yh.length) :
    crossEntropy1F dst y yh norm n = .ok (tab n fun i => crossEntropyS1F (vec y i) (vec yh i) norm) := by
  unfold crossEntropy1F
  have key := forUp_tab (n := n) (L := n) (f := vec dst)
    (r := fun i => crossEntropyS1F (vec y i) (vec yh i) norm)
    (body := fun i dst => do
      let a ← rd y i
      let b ← rd yh i
      wr dst i (crossEntropyS1F a b norm)) le_rfl ?_
  · rw [show dst = tab n (vec dst) by rw [← hd]; exact eq_tab dst]
    rw [key]
    congr 1
    apply tab_congr
    intro i hi; rw [if_pos hi]
  · intro i g hi
    rw [rd_vec (by omega), Exec.bind_ok, rd_vec (by omega), Exec.bind_ok, wr_tab _ _ hi]

theorem softmax1OptF_eq {dst s g : List (Fl A)} {n : Nat} (hd : dst.length = n) (hs : n ≤ s.length)
    (hg : n ≤ g.length) :
    softmax1OptF dst s g n = .ok (tab n fun i =>
      ordSum 0 n fun j => vec s i * ((if i = j then 1 else 0) - vec s j) * vec g j) := by
  unfold softmax1OptF
  have key := forUp_tab (n := n) (L := n) (f := vec dst)
    (r := fun i => ordSum 0 n fun j => vec s i * ((if i = j then 1 else 0) - vec s j) * vec g j)
    (body := fun i dst => do
      let dst ← wr dst i 0
      forUp n dst fun j dst => do
        let si ← rd s i
        let sj ← rd s j
        let g ← rd g j
        let d ← rd dst i
        wr dst i (d + si * ((if i = j then 1 else 0) - sj) * g)) le_rfl ?_
  · rw [show dst = tab n (vec dst) by rw [← hd]; exact eq_tab dst]
    rw [key]
    congr 1
    apply tab_congr
    intro i hi; rw [if_pos hi]
  · intro i f hi
    rw [wr_tab _ _ hi, Exec.bind_ok]
    rw [accLoop (v := fun j => vec s i * ((if i = j then 1 else 0) - vec s j) * vec g j)]
    · rw [upd_upd, upd_self]
    · intro j f' hj
      rw [rd_vec (by omega), Exec.bind_ok, rd_vec (by omega), Exec.bind_ok, rd_vec (by omega),
        Exec.bind_ok, rd_tab _ hi, Exec.bind_ok, wr_tab _ _ hi]

theorem stdMaxF_fin (a b : ℝ) : stdMaxF (.fin a : Fl A) (.fin b) = .fin (Loss.stdMax a b) := by
  unfold stdMaxF Loss.stdMax
  by_cases h : a < b
  · rw [if_pos ((fl_lt _ _).mpr h), if_pos h]
  · rw [if_neg (fun h' => h ((fl_lt _ _).mp h')), if_neg h]

/-! ### `double` -/

theorem double_big : double.big = 2 ^ (1024 : ℤ) := rfl
theorem double_u : double.u = 2 ^ (-53 : ℤ) := rfl
theorem double_e : double.e = 2 ^ (-1075 : ℤ) := rfl

theorem double_exact {m k : ℤ} (hm : |m| ≤ 2 ^ 53) (hk : -1074 ≤ k) : double.rnd (m * 2 ^ k) = m * 2 ^ k :=
  round_exact hm hk

theorem double_pow {k : ℤ} (hk : -1074 ≤ k) : double.rnd (2 ^ k) = 2 ^ k := by
  have := double_exact (m := 1) (k := k) (by norm_num) hk
  simpa using this

/-- Rounding twice is rounding once. -/
theorem double_idem (x : ℝ) : double.rnd (double.rnd x) = double.rnd x := by
  obtain ⟨m, k, h1, h2, h3⟩ := round_format (B := binary64) x
  show binary64.round (binary64.round x) = binary64.round x
  rw [h3]
  exact round_exact h1 h2

end Verif.Float

import Verif.Model.Float
import Mathlib.Tactic.Linarith
import Mathlib.Tactic.Positivity
import Mathlib.Tactic.Ring
import Mathlib.Tactic.NormNum
import Mathlib.Tactic.FieldSimp
import Mathlib.Algebra.Order.Field.Power
import Mathlib.Algebra.Group.Int.Even

/-
Rounding to the nearest `double`: error, monotonicity, and the numbers it does not change.
-/

namespace Verif.Float

variable {B : Bin}

theorem nearest_err (q : ℝ) : |(nearest q : ℝ) - q| ≤ 1 / 2 := by
  have h0 := Int.floor_le q
  have h1 := Int.lt_floor_add_one q
  unfold nearest
  split
  · rw [abs_le]; constructor <;> linarith
  · split
    · push_cast; rw [abs_le]; constructor <;> linarith
    · split
      · rw [abs_le]; constructor <;> linarith
      · push_cast; rw [abs_le]; constructor <;> linarith

theorem nearest_int (n : ℤ) : nearest (n : ℝ) = n := by
  unfold nearest
  rw [if_pos (by simp), Int.floor_intCast]

theorem nearest_le (q : ℝ) : nearest q ≤ ⌊q⌋ + 1 := by
  unfold nearest
  split
  · omega
  · split
    · omega
    · split <;> omega

theorem le_nearest (q : ℝ) : ⌊q⌋ ≤ nearest q := by
  unfold nearest
  split
  · omega
  · split
    · omega
    · split <;> omega

theorem nearest_mono {x y : ℝ} (h : x ≤ y) : nearest x ≤ nearest y := by
  rcases lt_or_eq_of_le (Int.floor_mono h) with hf | hf
  · have := nearest_le x
    have := le_nearest y
    omega
  · unfold nearest
    rw [← hf]
    split
    · split
      · omega
      · split
        · omega
        · split <;> omega
    · rename_i h1
      split
      · rename_i h2
        rw [if_neg (by linarith), if_pos (by linarith)]
      · rename_i h2
        have h3 : ¬ y - ⌊x⌋ < 1 / 2 := by linarith
        rw [if_neg h3]
        by_cases h4 : 1 / 2 < y - ⌊x⌋
        · rw [if_pos h4]; split <;> omega
        · rw [if_neg h4]

theorem nearest_neg (q : ℝ) : nearest (-q) = -nearest q := by
  by_cases hz : q = (⌊q⌋ : ℝ)
  · rw [hz, ← Int.cast_neg, nearest_int, nearest_int]
  · have h0 := Int.floor_le q
    have h1 := Int.lt_floor_add_one q
    have hlt : (⌊q⌋ : ℝ) < q := lt_of_le_of_ne h0 (fun h => hz h.symm)
    have hf : ⌊-q⌋ = -⌊q⌋ - 1 := by
      rw [Int.floor_eq_iff]
      push_cast
      constructor <;> linarith
    unfold nearest
    rw [hf]
    push_cast
    by_cases ha : q - ⌊q⌋ < 1 / 2
    · rw [if_neg (by linarith), if_pos (by linarith), if_pos ha]; omega
    · by_cases hb : 1 / 2 < q - ⌊q⌋
      · rw [if_pos (by linarith), if_neg ha, if_pos hb]; omega
      · rw [if_neg (by linarith), if_neg (by linarith), if_neg ha, if_neg hb]
        by_cases he : Even ⌊q⌋
        · rw [if_neg (by rw [Int.even_sub_one, Int.not_even_iff_odd]; simpa using he), if_pos he]; omega
        · rw [if_pos (by rw [Int.even_sub_one]; simpa using he), if_neg he]; omega

theorem place_neg (x : ℝ) : B.place (-x) = B.place x := by unfold Bin.place; rw [abs_neg]

theorem round_neg (x : ℝ) : B.round (-x) = -B.round x := by
  unfold Bin.round
  rw [place_neg, neg_div, nearest_neg]
  push_cast
  ring

theorem two_pos (k : ℤ) : (0 : ℝ) < 2 ^ k := by positivity

theorem round_err_place (x : ℝ) : |B.round x - x| ≤ 2 ^ B.place x / 2 := by
  have hp := two_pos (B.place x)
  have h := nearest_err (x / 2 ^ B.place x)
  have e : B.round x - x = (nearest (x / 2 ^ B.place x) - x / 2 ^ B.place x) * 2 ^ B.place x := by
    unfold Bin.round
    field_simp
  rw [e, abs_mul, abs_of_pos hp]
  nlinarith [hp.le]

theorem round_zero : B.round 0 = 0 := by
  unfold Bin.round
  have := nearest_int 0
  rw [Int.cast_zero] at this
  rw [zero_div, this, Int.cast_zero, zero_mul]

theorem place_le {x : ℝ} (hx : x ≠ 0) (h : B.low < B.place x) :
    (2 : ℝ) ^ B.place x ≤ 2 ^ (1 - B.prec : ℤ) * |x| := by
  have hl : B.place x = Int.log 2 |x| + 1 - B.prec := by unfold Bin.place at *; omega
  have := Int.zpow_log_le_self (R := ℝ) (b := 2) (by norm_num) (abs_pos.mpr hx)
  rw [hl, show Int.log 2 |x| + 1 - B.prec = (1 - B.prec) + Int.log 2 |x| by ring, zpow_add₀ (by norm_num)]
  exact mul_le_mul_of_nonneg_left (by exact_mod_cast this) (by positivity)

theorem round_err (x : ℝ) :
    |B.round x - x| ≤ 2 ^ (-B.prec : ℤ) * |x| + 2 ^ (B.low - 1) := by
  by_cases hx : x = 0
  · subst hx
    rw [round_zero]
    simp only [sub_self, abs_zero, mul_zero, zero_add]
    positivity
  · have h := round_err_place (B := B) x
    by_cases hp : B.low < B.place x
    · have := place_le hx hp
      have e : (2 : ℝ) ^ (1 - B.prec : ℤ) = 2 * 2 ^ (-B.prec : ℤ) := by
        rw [show (1 - B.prec : ℤ) = 1 + -B.prec by ring, zpow_add₀ (by norm_num), zpow_one]
      rw [e] at this
      have : (0 : ℝ) ≤ 2 ^ (B.low - 1) := by positivity
      linarith
    · have hpl : B.place x = B.low := by unfold Bin.place at *; omega
      rw [hpl] at h
      have e : (2 : ℝ) ^ B.low = 2 * 2 ^ (B.low - 1) := by
        rw [show B.low = 1 + (B.low - 1) by ring, zpow_add₀ (by norm_num), zpow_one]
        ring_nf
      rw [e] at h
      have : (0 : ℝ) ≤ 2 ^ (-B.prec : ℤ) * |x| := by positivity
      linarith

/-- A multiple of the last place is not changed. -/
theorem round_multiple {x : ℝ} {n : ℤ} (h : x = n * 2 ^ B.place x) : B.round x = x := by
  have hp := (two_pos (B.place x)).ne'
  have e : x / 2 ^ B.place x = n := by rw [div_eq_iff hp]; exact h
  unfold Bin.round
  rw [e, nearest_int, ← h]

theorem zpow_multiple {k l : ℤ} (h : k ≤ l) : ∃ m : ℤ, (2 : ℝ) ^ l = m * 2 ^ k := by
  refine ⟨2 ^ (l - k).toNat, ?_⟩
  push_cast
  rw [← zpow_natCast, ← zpow_add₀ (by norm_num)]
  congr 1
  omega

theorem place_mono {x y : ℝ} (hx : 0 < x) (h : x ≤ y) : B.place x ≤ B.place y := by
  unfold Bin.place
  have : Int.log 2 |x| ≤ Int.log 2 |y| := by
    rw [abs_of_pos hx, abs_of_pos (lt_of_lt_of_le hx h)]
    exact Int.log_mono_right hx h
  omega

theorem round_mono_pos {x y : ℝ} (hx : 0 < x) (h : x ≤ y) : B.round x ≤ B.round y := by
  have hy : 0 < y := lt_of_lt_of_le hx h
  have hpx := two_pos (B.place x)
  have hpy := two_pos (B.place y)
  rcases lt_or_eq_of_le (place_mono (B := B) hx h) with hp | hp
  · -- the power of two between the two numbers
    have hly : B.place y = Int.log 2 |y| + 1 - B.prec := by unfold Bin.place at *; omega
    have hxy : Int.log 2 |x| < Int.log 2 |y| := by unfold Bin.place at *; omega
    have hB : (2 : ℝ) ^ Int.log 2 |y| ≤ y := by
      have := Int.zpow_log_le_self (R := ℝ) (b := 2) (by norm_num) (abs_pos.mpr hy.ne')
      rw [abs_of_pos hy] at this ⊢
      exact_mod_cast this
    have hA : x ≤ (2 : ℝ) ^ Int.log 2 |y| := by
      have := Int.lt_zpow_succ_log_self (R := ℝ) (b := 2) (by norm_num) |x|
      rw [abs_of_pos hx] at this hxy
      have h2 : (2 : ℝ) ^ (Int.log 2 x + 1) ≤ 2 ^ Int.log 2 |y| :=
        zpow_le_zpow_right₀ (by norm_num) (by omega)
      have h3 : x < (2 : ℝ) ^ (Int.log 2 x + 1) := by exact_mod_cast this
      linarith
    have e1 : B.round x ≤ (2 : ℝ) ^ Int.log 2 |y| := by
      obtain ⟨m, hm⟩ := zpow_multiple (k := B.place x) (l := Int.log 2 |y|) (by have := B.prec_pos; omega)
      rw [hm]
      unfold Bin.round
      refine mul_le_mul_of_nonneg_right ?_ hpx.le
      have : nearest (x / 2 ^ B.place x) ≤ nearest (m : ℝ) := by
        apply nearest_mono
        rw [div_le_iff₀ hpx, ← hm]
        exact hA
      rw [nearest_int] at this
      exact_mod_cast this
    have e2 : (2 : ℝ) ^ Int.log 2 |y| ≤ B.round y := by
      obtain ⟨m, hm⟩ := zpow_multiple (k := B.place y) (l := Int.log 2 |y|) (by have := B.prec_pos; omega)
      rw [hm]
      unfold Bin.round
      refine mul_le_mul_of_nonneg_right ?_ hpy.le
      have : nearest (m : ℝ) ≤ nearest (y / 2 ^ B.place y) := by
        apply nearest_mono
        rw [le_div_iff₀ hpy, ← hm]
        exact hB
      rw [nearest_int] at this
      exact_mod_cast this
    exact e1.trans e2
  · unfold Bin.round
    rw [← hp]
    refine mul_le_mul_of_nonneg_right ?_ hpx.le
    have : nearest (x / 2 ^ B.place x) ≤ nearest (y / 2 ^ B.place x) := by
      apply nearest_mono
      exact div_le_div_of_nonneg_right h hpx.le
    exact_mod_cast this

theorem round_nonneg {x : ℝ} (hx : 0 ≤ x) : 0 ≤ B.round x := by
  unfold Bin.round
  refine mul_nonneg ?_ (two_pos _).le
  have : nearest ((0 : ℤ) : ℝ) ≤ nearest (x / 2 ^ B.place x) := by
    apply nearest_mono
    rw [Int.cast_zero]
    exact div_nonneg hx (two_pos _).le
  rw [nearest_int] at this
  exact_mod_cast this

theorem round_mono (x y : ℝ) (h : x ≤ y) : B.round x ≤ B.round y := by
  rcases lt_trichotomy x 0 with hx | hx | hx
  · rcases lt_or_ge y 0 with hy | hy
    · have := round_mono_pos (B := B) (x := -y) (y := -x) (by linarith) (by linarith)
      rw [round_neg, round_neg] at this
      linarith
    · have h1 := round_nonneg (B := B) (x := -x) (by linarith)
      rw [round_neg] at h1
      have h2 := round_nonneg (B := B) hy
      linarith
  · subst hx
    rw [round_zero]
    exact round_nonneg h
  · exact round_mono_pos hx h

/-- Numbers with at most `prec` significant bits, not below the smallest last place, are not changed. -/
theorem round_exact {m k : ℤ} (hm : |m| ≤ 2 ^ B.prec) (hk : B.low ≤ k) :
    B.round (m * 2 ^ k) = m * 2 ^ k := by
  by_cases h0 : m = 0
  · subst h0; simp [round_zero]
  have hx : (0 : ℝ) < |(m : ℝ) * 2 ^ k| := by
    rw [abs_pos]
    exact mul_ne_zero (by exact_mod_cast h0) (two_pos k).ne'
  have e : ((2 ^ B.prec : ℤ) : ℝ) = 2 ^ (B.prec : ℤ) := by push_cast; rw [zpow_natCast]
  by_cases h53 : |m| = 2 ^ B.prec
  · -- a power of two
    have hlog : Int.log 2 |(m : ℝ) * 2 ^ k| = B.prec + k := by
      rw [abs_mul, abs_of_pos (two_pos k), ← Int.cast_abs, h53]
      rw [e, ← zpow_add₀ (by norm_num)]
      have := Int.log_zpow (R := ℝ) (b := 2) (by norm_num) (B.prec + k)
      exact_mod_cast this
    have hpl : B.place ((m : ℝ) * 2 ^ k) = k + 1 := by unfold Bin.place; rw [hlog]; omega
    have hpp : (2 : ℤ) ^ B.prec = 2 * 2 ^ (B.prec - 1) := by
      rw [← pow_succ']
      congr 1
      have := B.prec_pos
      omega
    have hm' : ∃ j : ℤ, m = 2 * j := by
      rcases abs_choice m with h | h
      · exact ⟨2 ^ (B.prec - 1), by rw [h] at h53; omega⟩
      · exact ⟨-2 ^ (B.prec - 1), by rw [h] at h53; omega⟩
    obtain ⟨j, hj⟩ := hm'
    apply round_multiple (n := j)
    rw [hpl, hj, zpow_add₀ (by norm_num), zpow_one]
    push_cast
    ring
  · have hlt : |m| < 2 ^ B.prec := by omega
    have hlog : Int.log 2 |(m : ℝ) * 2 ^ k| < B.prec + k := by
      rw [← Int.lt_zpow_iff_log_lt (by norm_num) hx]
      rw [abs_mul, abs_of_pos (two_pos k), ← Int.cast_abs]
      push_cast
      rw [zpow_add₀ (by norm_num)]
      refine mul_lt_mul_of_pos_right ?_ (two_pos k)
      have : ((|m| : ℤ) : ℝ) < ((2 ^ B.prec : ℤ) : ℝ) := by exact_mod_cast hlt
      rw [e] at this
      exact_mod_cast this
    have hpl : B.place ((m : ℝ) * 2 ^ k) ≤ k := by unfold Bin.place; omega
    obtain ⟨j, hj⟩ := zpow_multiple hpl
    apply round_multiple (n := m * j)
    push_cast
    rw [mul_assoc, ← hj]

theorem nearest_best (q : ℝ) (k : ℤ) : |(nearest q : ℝ) - q| ≤ |(k : ℝ) - q| := by
  have h0 := Int.floor_le q
  have h1 := Int.lt_floor_add_one q
  have hk : (k : ℝ) ≤ ⌊q⌋ ∨ (⌊q⌋ : ℝ) + 1 ≤ k := by
    rcases le_or_gt k ⌊q⌋ with h | h
    · left; exact_mod_cast h
    · right; exact_mod_cast h
  have hk' : q - ⌊q⌋ ≤ |(k : ℝ) - q| ∨ (⌊q⌋ : ℝ) + 1 - q ≤ |(k : ℝ) - q| := by
    rcases hk with h | h
    · left; rw [abs_sub_comm]; exact le_trans (by linarith) (le_abs_self _)
    · right; exact le_trans (by linarith) (le_abs_self _)
  have hlo : |((⌊q⌋ : ℤ) : ℝ) - q| = q - ⌊q⌋ := by rw [abs_sub_comm, abs_of_nonneg (by linarith)]
  have hhi : |((⌊q⌋ + 1 : ℤ) : ℝ) - q| = ⌊q⌋ + 1 - q := by
    push_cast
    rw [abs_of_nonneg (by linarith)]
  unfold nearest
  split
  · rw [hlo]; rcases hk' with h | h <;> linarith
  · split
    · rw [hhi]; rcases hk' with h | h <;> linarith
    · split
      · rw [hlo]; rcases hk' with h | h <;> linarith
      · rw [hhi]; rcases hk' with h | h <;> linarith

theorem round_best_grid (x : ℝ) {y : ℝ} {k : ℤ} (h : y = k * 2 ^ B.place x) :
    |B.round x - x| ≤ |y - x| := by
  have hp := two_pos (B.place x)
  have hb := nearest_best (x / 2 ^ B.place x) k
  have e1 : B.round x - x = (nearest (x / 2 ^ B.place x) - x / 2 ^ B.place x) * 2 ^ B.place x := by
    unfold Bin.round
    field_simp
  have e2 : y - x = (k - x / 2 ^ B.place x) * 2 ^ B.place x := by
    rw [h]
    field_simp
  rw [e1, e2, abs_mul, abs_mul]
  exact mul_le_mul_of_nonneg_right hb (abs_nonneg _)

theorem round_best_pos {x y : ℝ} (hx : 0 < x) (hy : B.round y = y) :
    |B.round x - x| ≤ |y - x| := by
  rcases le_or_gt y 0 with h0 | h0
  · have := round_best_grid (B := B) x (y := 0) (k := 0) (by simp)
    refine this.trans ?_
    rw [abs_sub_comm, abs_sub_comm y, abs_of_nonneg (by linarith), abs_of_nonneg (by linarith)]
    linarith
  · have hyg : y = nearest (y / 2 ^ B.place y) * 2 ^ B.place y := hy.symm
    rcases le_or_gt (B.place x) (B.place y) with hp | hp
    · obtain ⟨m, hm⟩ := zpow_multiple hp
      apply round_best_grid x (k := nearest (y / 2 ^ B.place y) * m)
      push_cast
      rw [mul_assoc, ← hm]
      exact hyg
    · have hlx : B.place x = Int.log 2 |x| + 1 - B.prec := by unfold Bin.place at *; omega
      have hyx : Int.log 2 |y| < Int.log 2 |x| := by unfold Bin.place at *; omega
      have hB : (2 : ℝ) ^ Int.log 2 |x| ≤ x := by
        have := Int.zpow_log_le_self (R := ℝ) (b := 2) (by norm_num) (abs_pos.mpr hx.ne')
        rw [abs_of_pos hx] at this ⊢
        exact_mod_cast this
      have hA : y ≤ (2 : ℝ) ^ Int.log 2 |x| := by
        have := Int.lt_zpow_succ_log_self (R := ℝ) (b := 2) (by norm_num) |y|
        rw [abs_of_pos h0] at this hyx
        have h2 : (2 : ℝ) ^ (Int.log 2 y + 1) ≤ 2 ^ Int.log 2 |x| :=
          zpow_le_zpow_right₀ (by norm_num) (by omega)
        have h3 : y < (2 : ℝ) ^ (Int.log 2 y + 1) := by exact_mod_cast this
        linarith
      obtain ⟨m, hm⟩ := zpow_multiple (k := B.place x) (l := Int.log 2 |x|) (by have := B.prec_pos; omega)
      refine (round_best_grid x hm).trans ?_
      generalize (2 : ℝ) ^ Int.log 2 |x| = B at *
      rw [abs_sub_comm, abs_sub_comm y, abs_of_nonneg (by linarith), abs_of_nonneg (by linarith)]
      linarith

/-- No number of the format is nearer. -/
theorem round_best (x : ℝ) {y : ℝ} (hy : B.round y = y) : |B.round x - x| ≤ |y - x| := by
  rcases lt_trichotomy x 0 with hx | hx | hx
  · have := round_best_pos (B := B) (x := -x) (y := -y) (by linarith) (by rw [round_neg, hy])
    rw [round_neg] at this
    rw [abs_sub_comm, abs_sub_comm y]
    convert this using 2 <;> ring
  · subst hx
    rw [round_zero, sub_self, abs_zero]
    exact abs_nonneg _
  · exact round_best_pos hx hy

/-- The rounded number belongs to the format. -/
theorem round_format (x : ℝ) :
    ∃ m k : ℤ, |m| ≤ 2 ^ B.prec ∧ B.low ≤ k ∧ B.round x = m * 2 ^ k := by
  refine ⟨nearest (x / 2 ^ B.place x), B.place x, ?_, by unfold Bin.place; omega, rfl⟩
  have hp := two_pos (B.place x)
  have h : |x| ≤ (2 : ℝ) ^ (B.prec + B.place x) := by
    have := Int.lt_zpow_succ_log_self (R := ℝ) (b := 2) (by norm_num) |x|
    have h2 : (2 : ℝ) ^ (Int.log 2 |x| + 1) ≤ 2 ^ (B.prec + B.place x) :=
      zpow_le_zpow_right₀ (by norm_num) (by unfold Bin.place; omega)
    have h3 : |x| < (2 : ℝ) ^ (Int.log 2 |x| + 1) := by exact_mod_cast this
    linarith
  rw [zpow_add₀ (by norm_num)] at h
  have h1 : |x / 2 ^ B.place x| ≤ (2 : ℝ) ^ (B.prec : ℤ) := by
    rw [abs_div, abs_of_pos hp, div_le_iff₀ hp]
    exact h
  rw [abs_le] at h1 ⊢
  have e : ((2 ^ B.prec : ℤ) : ℝ) = 2 ^ (B.prec : ℤ) := by push_cast; rw [zpow_natCast]
  have e' : ((-2 ^ B.prec : ℤ) : ℝ) = -2 ^ (B.prec : ℤ) := by push_cast; rw [zpow_natCast]
  constructor
  · have := nearest_mono (x := ((-2 ^ B.prec : ℤ) : ℝ)) (y := x / 2 ^ B.place x) (by rw [e']; exact h1.1)
    rwa [nearest_int] at this
  · have := nearest_mono (y := ((2 ^ B.prec : ℤ) : ℝ)) (x := x / 2 ^ B.place x) (by rw [e]; exact h1.2)
    rwa [nearest_int] at this

/-- A binary format as a format. -/
noncomputable def Bin.arith (B : Bin) : Arith where
  rnd := B.round
  u := 2 ^ (-B.prec : ℤ)
  e := 2 ^ (B.low - 1)
  big := 2 ^ (B.high : ℤ)
  u_nonneg := by positivity
  e_nonneg := by positivity
  err := round_err
  mono := round_mono
  neg := round_neg
  one := by
    have := round_exact (B := B) (m := 1) (k := 0) (by
      rw [abs_one]
      exact one_le_pow₀ (by norm_num)) B.low_le
    simpa using this
  one_lt_big := one_lt_zpow₀ (by norm_num) (by have := B.high_pos; omega)

/-- The format `double`: 53 significant bits, last place at least `2^-1074`, finite below `2^1024`. -/
noncomputable def double : Arith := binary64.arith

theorem Arith.zero (A : Arith) : A.rnd 0 = 0 := by
  have := A.neg 0
  rw [neg_zero] at this
  linarith

end Verif.Float

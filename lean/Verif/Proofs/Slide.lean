import Verif.Model.Slide
import Verif.Spec.Slide
import Verif.Proofs.Tab
import Verif.Proofs.Loops
import Mathlib.Algebra.BigOperators.Intervals
import Mathlib.Algebra.BigOperators.Ring.Finset
import Mathlib.Tactic.Ring
import Mathlib.Tactic.Linarith

namespace Verif.Slide
open Verif.Spec Finset

/-! ### Output sides -/

theorem placements_eq {i k s p : Nat} (hs : 0 < s) (hk : k ≤ i + 2 * p) :
    placements i k s p = (i + 2 * p - k) / s + 1 := by
  unfold placements
  have : ((range (i + 2 * p + 1)).filter fun r => r * s + k ≤ i + 2 * p)
      = range ((i + 2 * p - k) / s + 1) := by
    ext r
    simp only [mem_filter, mem_range, Nat.lt_succ_iff, Nat.le_div_iff_mul_le hs]
    constructor
    · rintro ⟨_, h⟩; omega
    · intro h
      have : r ≤ r * s := Nat.le_mul_of_pos_right r hs
      omega
  rw [this, card_range]

theorem wrap_side {i k s p : Nat} (hk0 : 0 < k) (hk : k ≤ i + 2 * p)
    (hlt : i + 2 * p < 2 ^ 64) :
    wrap (wrap (i + (2 ^ 64 - wrap k) + 2 * p) / s + 1) = (i + 2 * p - k) / s + 1 := by
  have h1 : wrap k = k := Nat.mod_eq_of_lt (by omega)
  have h2 : wrap (i + (2 ^ 64 - wrap k) + 2 * p) = i + 2 * p - k := by
    rw [h1]
    unfold wrap
    rw [show i + (2 ^ 64 - k) + 2 * p = (i + 2 * p - k) + 2 ^ 64 by omega, Nat.add_mod_right,
      Nat.mod_eq_of_lt (by omega)]
  rw [h2]
  apply Nat.mod_eq_of_lt
  have : (i + 2 * p - k) / s ≤ i + 2 * p - k := Nat.div_le_self _ _
  omega

theorem slideSide_eq {i k s p : Nat} (hi : 0 < i) (hs : 0 < s) (hk0 : 0 < k)
    (hk : k ≤ i + 2 * p) (hlt : i + 2 * p < 2 ^ 64) :
    slideSide i k s p = placements i k s p := by
  rw [placements_eq hs hk, slideSide, if_neg (by omega), wrap_side hk0 hk hlt]

theorem outputSide_eq {i k s p : Nat} (hi : 0 < i) (hs : 0 < s) (hk0 : 0 < k)
    (hk : k ≤ i + 2 * p) (hlt : i + 2 * p < 2 ^ 64) :
    outputSide i k s p = .ok (placements i k s p) := by
  rw [placements_eq hs hk, outputSide, if_neg (by omega), if_neg (by omega), wrap_side hk0 hk hlt]

theorem placement_le {i k s p r : Nat} (hs : 0 < s) (hk : k ≤ i + 2 * p)
    (h : r < placements i k s p) : r * s + k ≤ i + 2 * p := by
  rw [placements_eq hs hk, Nat.lt_succ_iff, Nat.le_div_iff_mul_le hs] at h
  omega

/-! ### The slide as two plain loops -/

/-- The kernel shape, stride and padding of a geometry. -/
def ks (g : Geom) : Shape2 := ⟨g.kh, g.kw⟩
def st (g : Geom) : Shape2 := ⟨g.sh, g.sw⟩
def pd (g : Geom) : Shape2 := ⟨g.ph, g.pw⟩

theorem kernelSlide_eq {σ : Type _} {g : Geom} (hg : g.Fits)
    (op : Nat → Nat → Nat → Nat → Int → Int → σ → Exec σ) (s : σ) :
    kernelSlide op g.src (ks g) (st g) (pd g) s
      = forUp g.rows s fun r s => forUp g.cols s fun c s =>
          op g.rows g.cols r c ((r * g.sh : Nat) - (g.ph : Int))
            (((c * g.sw : Nat) - (g.pw : Int)) * g.src.c) s := by
  unfold kernelSlide
  have e1 : max (st g).w 1 = g.sw := Nat.max_eq_left hg.sw_pos
  have e2 : max (st g).h 1 = g.sh := Nat.max_eq_left hg.sh_pos
  have e3 : slideSide g.src.w (ks g).w g.sw (pd g).w = g.cols :=
    slideSide_eq hg.w_pos hg.sw_pos hg.kw_pos hg.kw_le hg.w_lt
  have e4 : slideSide g.src.h (ks g).h g.sh (pd g).h = g.rows :=
    slideSide_eq hg.h_pos hg.sh_pos hg.kh_pos hg.kh_le hg.h_lt
  simp only [e1, e2, e3, e4]
  rfl

/-! ### Loops that fill a buffer from front to back -/

variable {α : Type _}

/-- Buffer whose first `L` cells have been overwritten with `V`. -/
def pre (N : Nat) (V f : Nat → α) (L : Nat) : List α := tab N fun q => if q < L then V q else f q

theorem wr_pre {N L : Nat} {V f : Nat → α} (h : L < N) {v : α} (hv : v = V L) :
    wr (pre N V f L) L v = .ok (pre N V f (L + 1)) := by
  unfold pre
  rw [wr_tab _ _ h]
  congr 1
  apply tab_congr
  intro q _
  unfold upd
  by_cases e : q = L
  · subst e; simp [hv]
  · rw [if_neg e]
    by_cases h2 : q < L
    · have h3 : q < L + 1 := by omega
      simp [h2, h3]
    · have h3 : ¬ q < L + 1 := by omega
      simp [h2, h3]

theorem forUp_eq {σ : Type _} {n : Nat} {body : Nat → σ → Exec σ} (S : Nat → σ)
    (h : ∀ i, i < n → body i (S i) = .ok (S (i + 1))) : forUp n (S 0) body = .ok (S n) := by
  obtain ⟨s, h1, h2⟩ := forUp_returns (n := n) (s := S 0) (body := body)
    (fun i s => s = S i) rfl (by rintro i s hi rfl; exact ⟨_, h i hi, rfl⟩)
  rw [h1, h2]

theorem forUp_pre {n step L N : Nat} {V f : Nat → α} {body : Nat → List α → Exec (List α)}
    (h : ∀ i, i < n → body i (pre N V f (L + i * step))
      = .ok (pre N V f (L + (i + 1) * step))) :
    forUp n (pre N V f L) body = .ok (pre N V f (L + n * step)) := by
  have := forUp_eq (fun i => pre N V f (L + i * step)) h
  simpa using this

/-- A loop that only accumulates. -/
theorem forUp_add {σ M : Type _} [AddCommMonoid M] {n : Nat} {body : Nat → σ → Exec σ}
    (enc : M → σ) (A : Nat → M)
    (h : ∀ i, i < n → ∀ m, body i (enc m) = .ok (enc (m + A i))) (m : M) :
    forUp n (enc m) body = .ok (enc (m + ∑ i ∈ range n, A i)) := by
  have := forUp_eq (n := n) (body := body) (fun k => enc (m + ∑ i ∈ range k, A i))
    (fun i hi => by rw [h i hi, sum_range_succ, add_assoc])
  simpa using this

theorem sum_range_mul {M : Type _} [AddCommMonoid M] (a b : Nat) (f : Nat → Nat → M) :
    ∑ q ∈ range (a * b), f (q / b) (q % b) = ∑ i ∈ range a, ∑ j ∈ range b, f i j := by
  induction a with
  | zero => simp
  | succ a ih =>
    rw [Nat.succ_mul, sum_range_add, sum_range_succ, ih]
    congr 1
    apply sum_congr rfl
    intro j hj
    have hj' : j < b := by simpa using hj
    rw [Nat.mul_comm a b, Nat.mul_add_div (by omega), Nat.div_eq_of_lt hj', Nat.mul_add_mod,
      Nat.mod_eq_of_lt hj']
    rfl

theorem out_lt {H W n r c f : Nat} (hr : r < H) (hc : c < W) (hf : f < n) :
    (r * W + c) * n + f < H * W * n := by
  have h1 : r * W + c < H * W := rowmajor_lt hr hc
  exact rowmajor_lt h1 hf

theorem out_dm {W n r c f : Nat} (hc : c < W) (hf : f < n) :
    ((r * W + c) * n + f) % n = f ∧ ((r * W + c) * n + f) / n % W = c
      ∧ ((r * W + c) * n + f) / n / W = r := by
  have e1 : ((r * W + c) * n + f) / n = r * W + c := by
    rw [Nat.mul_comm, Nat.mul_add_div (by omega), Nat.div_eq_of_lt hf, Nat.add_zero]
  have e2 : ((r * W + c) * n + f) % n = f := by
    rw [Nat.mul_comm, Nat.mul_add_mod, Nat.mod_eq_of_lt hf]
  refine ⟨e2, ?_, ?_⟩
  · rw [e1, Nat.mul_comm, Nat.mul_add_mod, Nat.mod_eq_of_lt hc]
  · rw [e1, Nat.mul_comm, Nat.mul_add_div (by omega), Nat.div_eq_of_lt hc, Nat.add_zero]

/-- A kernel slide whose operation writes the `n` cells of its output position. -/
theorem slide_fill {g : Geom} (hg : g.Fits) {n : Nat} {op : Nat → Nat → Nat → Nat → Int → Int →
      List α → Exec (List α)} {dst : List α} [Zero α] (V : Nat → Nat → Nat → α)
    (hdst : g.rows * g.cols * n ≤ dst.length)
    (hop : ∀ r c d (W : Nat → α), r < g.rows → c < g.cols → d.length = dst.length →
      (∀ f, f < n → W ((r * g.cols + c) * n + f) = V r c f) →
      ∀ F, d = pre dst.length W F ((r * g.cols + c) * n) →
      op g.rows g.cols r c ((r * g.sh : Nat) - (g.ph : Int))
            (((c * g.sw : Nat) - (g.pw : Int)) * g.src.c) d
        = .ok (pre dst.length W F ((r * g.cols + c) * n + n))) :
    ∃ d, kernelSlide op g.src (ks g) (st g) (pd g) dst = .ok d ∧ d.length = dst.length ∧
      (∀ r c f, r < g.rows → c < g.cols → f < n →
        d[(r * g.cols + c) * n + f]? = some (V r c f)) ∧
      (∀ q, g.rows * g.cols * n ≤ q → d[q]? = dst[q]?) := by
  rw [kernelSlide_eq hg]
  let W : Nat → α := fun q => V (q / n / g.cols) (q / n % g.cols) (q % n)
  have hW : ∀ r c f, c < g.cols → f < n → W ((r * g.cols + c) * n + f) = V r c f := by
    intro r c f hc hf
    obtain ⟨e1, e2, e3⟩ := out_dm (r := r) hc hf
    simp only [W, e1, e2, e3]
  have h0 : dst = pre dst.length W (vec dst) 0 := by
    unfold pre
    conv_lhs => rw [eq_tab dst]
    exact tab_congr fun q _ => by simp
  refine ⟨pre dst.length W (vec dst) (g.rows * (g.cols * n)), ?_, by simp [pre], ?_, ?_⟩
  · conv_lhs => rw [h0]
    have := forUp_pre (n := g.rows) (step := g.cols * n) (L := 0) (N := dst.length) (V := W)
      (f := vec dst)
      (body := fun r s => forUp g.cols s fun c s =>
          op g.rows g.cols r c ((r * g.sh : Nat) - (g.ph : Int))
            (((c * g.sw : Nat) - (g.pw : Int)) * g.src.c) s)
      (by
        intro r hr
        have key := forUp_pre (n := g.cols) (step := n) (L := r * (g.cols * n)) (N := dst.length)
          (V := W) (f := vec dst)
          (body := fun c s => op g.rows g.cols r c ((r * g.sh : Nat) - (g.ph : Int))
            (((c * g.sw : Nat) - (g.pw : Int)) * g.src.c) s)
          (by
            intro c hc
            have e : r * (g.cols * n) + c * n = (r * g.cols + c) * n := by ring
            have e' : r * (g.cols * n) + (c + 1) * n = (r * g.cols + c) * n + n := by ring
            rw [e, e']
            exact hop r c _ W hr hc (by simp [pre]) (fun f hf => hW r c f hc hf) _ rfl)
        rw [Nat.zero_add, Nat.zero_add, key]
        congr 2
        ring)
    rw [Nat.zero_add] at this
    exact this
  · intro r c f hr hc hf
    have hlt := out_lt hr hc hf
    unfold pre
    rw [tab_getElem? _ (by omega), if_pos (by rw [← Nat.mul_assoc]; exact hlt), hW r c f hc hf]
  · intro q hq
    by_cases h : q < dst.length
    · unfold pre
      rw [tab_getElem? _ h, if_neg (by rw [← Nat.mul_assoc]; omega), getElem?_vec h]
    · rw [List.getElem?_eq_none (by simp [pre]; omega), List.getElem?_eq_none (by omega)]

/-! ### Index arithmetic of one window -/

/-- The in-bounds test of the code in terms of the flattened column. -/
theorem guard_iff {s : Shape3} {i j : Int} {ch : Nat} (hch : ch < s.c) :
    (j * s.c + ch < 0 ∨ i < 0 ∨ j * s.c + ch ≥ ((s.w * s.c : Nat) : Int) ∨ i ≥ (s.h : Int))
      ↔ ¬ (0 ≤ i ∧ i < s.h ∧ 0 ≤ j ∧ j < s.w) := by
  have hc : (0 : Int) < s.c := by omega
  have hch' : (ch : Int) < s.c := by exact_mod_cast hch
  have h1 : j * s.c + ch < 0 ↔ j < 0 := by
    constructor
    · intro h
      by_contra hj
      have : 0 ≤ j * s.c := Int.mul_nonneg (by omega) (by omega)
      omega
    · intro h
      have : j * s.c ≤ (-1) * s.c := Int.mul_le_mul_of_nonneg_right (by omega) (by omega)
      omega
  have h2 : j * s.c + ch ≥ ((s.w * s.c : Nat) : Int) ↔ (s.w : Int) ≤ j := by
    push_cast
    constructor
    · intro h
      by_contra hj
      have : j * s.c ≤ ((s.w : Int) - 1) * s.c :=
        Int.mul_le_mul_of_nonneg_right (by omega) (by omega)
      rw [Int.sub_mul] at this
      omega
    · intro h
      have : (s.w : Int) * s.c ≤ j * s.c := Int.mul_le_mul_of_nonneg_right h (by omega)
      omega
  rw [h1, h2]
  omega

theorem pos_eq {s : Shape3} {i j : Int} {ch : Nat} (hi : 0 ≤ i) (hj : 0 ≤ j) :
    i * ((s.w * s.c : Nat) : Int) + (j * s.c + ch) = ((cellIdx s i.toNat j.toNat ch : Nat) : Int) := by
  unfold cellIdx
  push_cast
  rw [Int.toNat_of_nonneg hi, Int.toNat_of_nonneg hj]
  ring

theorem cellIdx_lt {s : Shape3} {i j ch : Nat} (hi : i < s.h) (hj : j < s.w) (hc : ch < s.c) :
    cellIdx s i j ch < s.h * s.w * s.c := by
  unfold cellIdx
  exact out_lt hi hj hc

theorem rdI_nat [Zero α] {l : List α} {i : Nat} {z : Int} (hz : z = (i : Int)) (h : i < l.length) :
    rdI l z = .ok (vec l i) := by
  subst hz
  unfold rdI
  rw [if_neg (by omega), Int.toNat_natCast, rd_vec h]

/-- Kernel index `ki` split in row, column and channel. -/
theorem ki_split (g : Geom) {ki : Nat} (h : ki < g.kh * g.kw * g.src.c) :
    0 < g.src.c ∧ 0 < g.kw ∧ ki / (g.kw * g.src.c) < g.kh ∧ ki % (g.kw * g.src.c) / g.src.c < g.kw ∧
      ki % (g.kw * g.src.c) % g.src.c < g.src.c ∧
      ki = ((ki / (g.kw * g.src.c)) * g.kw + ki % (g.kw * g.src.c) / g.src.c) * g.src.c
        + ki % (g.kw * g.src.c) % g.src.c := by
  have hc : 0 < g.src.c := Nat.pos_of_ne_zero (by intro e; simp [e] at h)
  have hw : 0 < g.kw := Nat.pos_of_ne_zero (by intro e; simp [e] at h)
  refine ⟨hc, hw, Nat.div_lt_of_lt_mul (by rw [Nat.mul_comm, ← Nat.mul_assoc]; exact h),
    Nat.div_lt_of_lt_mul ?_, Nat.mod_lt _ hc, ?_⟩
  · rw [Nat.mul_comm g.src.c]
    exact Nat.mod_lt _ (Nat.mul_pos hw hc)
  · have e1 := Nat.div_add_mod' ki (g.kw * g.src.c)
    have e2 := Nat.div_add_mod' (ki % (g.kw * g.src.c)) g.src.c
    rw [Nat.add_mul, Nat.mul_assoc, Nat.add_assoc, e2, e1]

/-- Position of kernel cell `(a, b)`, output `(r, c)`. -/
def rowOf (g : Geom) (r a : Nat) : Int := (r * g.sh + a : Nat) - (g.ph : Int)
def colOf (g : Geom) (c b : Nat) : Int := (c * g.sw + b : Nat) - (g.pw : Int)

def inside (s : Shape3) (i j : Int) : Prop := 0 ≤ i ∧ i < s.h ∧ 0 ≤ j ∧ j < s.w

instance (s : Shape3) (i j : Int) : Decidable (inside s i j) := by unfold inside; infer_instance

theorem row_code (g : Geom) (r ki : Nat) :
    ((r * g.sh : Nat) - (g.ph : Int)) + ((ki / (g.kw * g.src.c) : Nat) : Int)
      = rowOf g r (ki / (g.kw * g.src.c)) := by
  unfold rowOf; push_cast; ring

theorem col_code (g : Geom) (c ki : Nat) :
    ((c * g.sw : Nat) - (g.pw : Int)) * g.src.c + ((ki % (g.kw * g.src.c) : Nat) : Int)
      = colOf g c (ki % (g.kw * g.src.c) / g.src.c) * g.src.c
        + ((ki % (g.kw * g.src.c) % g.src.c : Nat) : Int) := by
  have e := Nat.div_add_mod' (ki % (g.kw * g.src.c)) g.src.c
  conv_lhs => rw [← e]
  unfold colOf; push_cast; ring

/-- The sum over the flattened kernel index as sums over row, column, channel. -/
theorem sum_ki {M : Type _} [AddCommMonoid M] (g : Geom) (F : Nat → Nat → Nat → M) :
    ∑ ki ∈ range (g.kh * g.kw * g.src.c),
      F (ki / (g.kw * g.src.c)) (ki % (g.kw * g.src.c) / g.src.c) (ki % (g.kw * g.src.c) % g.src.c)
    = ∑ a ∈ range g.kh, ∑ b ∈ range g.kw, ∑ ch ∈ range g.src.c, F a b ch := by
  rw [Nat.mul_assoc, sum_range_mul g.kh (g.kw * g.src.c)
    (fun i j => F i (j / g.src.c) (j % g.src.c))]
  apply sum_congr rfl
  intro a _
  exact sum_range_mul g.kw g.src.c (fun i j => F a i j)

/-! ### Cross-correlation -/

theorem conv_sum [CommSemiring α] {g : Geom} {nf r c f : Nat} {src k : List α}
    (hsrc : g.src.h * g.src.w * g.src.c ≤ src.length)
    (hk : g.kh * g.kw * g.src.c * nf ≤ k.length) (hf : f < nf) :
    (forUp (g.kh * g.kw * g.src.c) (0 : α) fun ki sum =>
      let rowSrc : Int := ((r * g.sh : Nat) - (g.ph : Int)) + ((ki / (g.kw * g.src.c) : Nat) : Int)
      let colSrc : Int := (((c * g.sw : Nat) - (g.pw : Int)) * g.src.c)
        + ((ki % (g.kw * g.src.c) : Nat) : Int)
      if colSrc < 0 ∨ rowSrc < 0 ∨ colSrc ≥ ((g.src.w * g.src.c : Nat) : Int)
          ∨ rowSrc ≥ (g.src.h : Int) then
        pure sum
      else do
        let x ← rdI src (rowSrc * ((g.src.w * g.src.c : Nat) : Int) + colSrc)
        let w ← rd k (ki * nf + f)
        pure (sum + x * w)) = .ok (corr g nf (vec src) (vec k) r c f) := by
  have key := forUp_add (n := g.kh * g.kw * g.src.c) (body := fun ki sum =>
      let rowSrc : Int := ((r * g.sh : Nat) - (g.ph : Int)) + ((ki / (g.kw * g.src.c) : Nat) : Int)
      let colSrc : Int := (((c * g.sw : Nat) - (g.pw : Int)) * g.src.c)
        + ((ki % (g.kw * g.src.c) : Nat) : Int)
      if colSrc < 0 ∨ rowSrc < 0 ∨ colSrc ≥ ((g.src.w * g.src.c : Nat) : Int)
          ∨ rowSrc ≥ (g.src.h : Int) then
        pure sum
      else do
        let x ← rdI src (rowSrc * ((g.src.w * g.src.c : Nat) : Int) + colSrc)
        let w ← rd k (ki * nf + f)
        pure (sum + x * w)) (fun a : α => a)
    (fun ki => (fun a b ch => padded (vec src) g.src (rowOf g r a) (colOf g c b) ch
      * vec k (((a * g.kw + b) * g.src.c + ch) * nf + f))
        (ki / (g.kw * g.src.c)) (ki % (g.kw * g.src.c) / g.src.c) (ki % (g.kw * g.src.c) % g.src.c))
    (by
      intro ki hki m
      obtain ⟨hc, hw, ha, hb, hch, hkie⟩ := ki_split g hki
      simp only [row_code, col_code]
      generalize ki / (g.kw * g.src.c) = a at *
      generalize ki % (g.kw * g.src.c) / g.src.c = b at *
      generalize ki % (g.kw * g.src.c) % g.src.c = ch at *
      have hg := guard_iff (s := g.src) (i := rowOf g r a) (j := colOf g c b) hch
      by_cases hin : 0 ≤ rowOf g r a ∧ rowOf g r a < g.src.h ∧ 0 ≤ colOf g c b
          ∧ colOf g c b < g.src.w
      · rw [if_neg (by rw [hg]; simpa using hin)]
        have hlt : cellIdx g.src (rowOf g r a).toNat (colOf g c b).toNat ch < src.length :=
          lt_of_lt_of_le (cellIdx_lt (by omega) (by omega) hch) hsrc
        have hkl : ki * nf + f < k.length := lt_of_lt_of_le (rowmajor_lt hki hf) hk
        rw [rdI_nat (pos_eq hin.1 hin.2.2.1) hlt, Exec.bind_ok, rd_vec hkl, Exec.bind_ok]
        unfold padded
        rw [if_pos hin, ← hkie]
        rfl
      · rw [if_pos (by rw [hg]; exact hin)]
        unfold padded
        rw [if_neg hin, zero_mul, add_zero]
        rfl) 0
  rw [zero_add] at key
  refine key.trans ?_
  rw [sum_ki g (fun a b ch => padded (vec src) g.src (rowOf g r a) (colOf g c b) ch
      * vec k (((a * g.kw + b) * g.src.c + ch) * nf + f))]
  rfl

theorem crossCorrelation_spec [CommSemiring α] {g : Geom} (hg : g.Fits) {nf : Nat}
    {dst src k : List α} (hdst : g.rows * g.cols * nf ≤ dst.length)
    (hsrc : g.src.h * g.src.w * g.src.c ≤ src.length)
    (hk : g.kh * g.kw * g.src.c * nf ≤ k.length) :
    ∃ d, crossCorrelation dst src g.src k (ks g) nf (st g) (pd g) = .ok d ∧
      d.length = dst.length ∧
      (∀ r c f, r < g.rows → c < g.cols → f < nf →
        d[(r * g.cols + c) * nf + f]? = some (corr g nf (vec src) (vec k) r c f)) ∧
      (∀ q, g.rows * g.cols * nf ≤ q → d[q]? = dst[q]?) := by
  unfold crossCorrelation
  apply slide_fill hg (n := nf) (fun r c f => corr g nf (vec src) (vec k) r c f) hdst
  intro r c d W hr hc hd hW F hpre
  subst hpre
  unfold conv4dOp
  simp only [ks]
  have := forUp_pre (n := nf) (step := 1) (L := (r * g.cols + c) * nf) (N := dst.length) (V := W)
    (f := F) (body := fun f dst => do
      let sum ← forUp (g.kh * g.kw * g.src.c) (0 : α) fun ki sum =>
        let rowSrc : Int := ((r * g.sh : Nat) - (g.ph : Int))
          + ((ki / (g.kw * g.src.c) : Nat) : Int)
        let colSrc : Int := (((c * g.sw : Nat) - (g.pw : Int)) * g.src.c)
          + ((ki % (g.kw * g.src.c) : Nat) : Int)
        if colSrc < 0 ∨ rowSrc < 0 ∨ colSrc ≥ ((g.src.w * g.src.c : Nat) : Int)
            ∨ rowSrc ≥ (g.src.h : Int) then
          pure sum
        else do
          let x ← rdI src (rowSrc * ((g.src.w * g.src.c : Nat) : Int) + colSrc)
          let w ← rd k (ki * nf + f)
          pure (sum + x * w)
      wr dst (r * g.cols * nf + c * nf + f) sum)
    (by
      intro f hf
      rw [conv_sum hsrc hk hf, Exec.bind_ok, ← Nat.add_mul, Nat.mul_one, Nat.mul_one,
        ← Nat.add_assoc]
      exact wr_pre (lt_of_lt_of_le (out_lt hr hc hf) hdst) (hW f hf).symm)
  rw [Nat.mul_one] at this
  exact this

end Verif.Slide

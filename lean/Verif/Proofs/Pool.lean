import Verif.Proofs.Conv
import Mathlib.Order.Basic
import Mathlib.Algebra.Field.Basic
import Mathlib.Algebra.CharZero.Defs

namespace Verif.Slide
open Verif.Spec Finset

variable {α : Type _}

theorem forFrom_eq {σ : Type _} {k i0 : Nat} {body : Nat → σ → Exec σ} (S : Nat → σ)
    (h : ∀ i, i0 ≤ i → i < i0 + k → body i (S i) = .ok (S (i + 1))) :
    forFrom i0 k (S i0) body = .ok (S (i0 + k)) := by
  obtain ⟨s, h1, h2⟩ := forFrom_returns (body := body) (fun i s => s = S i) k i0 (S i0) rfl
    (by rintro i s h0 hi rfl; exact ⟨_, h i h0 hi, rfl⟩)
  rw [h1, h2]

/-- Position of window cell number `ki`. -/
def cellNo (g : Geom) (r c ch ki : Nat) : Nat := windowCell g r c (ki / g.kw) (ki % g.kw) ch

theorem pool_pos {g : Geom} (hp : g.Pool) (r c ch ki : Nat) :
    (((r * g.sh : Nat) - (g.ph : Int)) + ((ki / g.kw : Nat) : Int)) * ((g.src.w * g.src.c : Nat) : Int)
      + ((((c * g.sw : Nat) - (g.pw : Int)) * g.src.c) + ((ki % g.kw * g.src.c : Nat) : Int) + (ch : Int))
      = (cellNo g r c ch ki : Int) := by
  unfold cellNo windowCell cellIdx
  rw [hp.1, hp.2]
  push_cast
  ring

theorem pool_pos0 {g : Geom} (hp : g.Pool) (r c ch : Nat) :
    (((r * g.sh : Nat) - (g.ph : Int))) * ((g.src.w * g.src.c : Nat) : Int)
      + (((c * g.sw : Nat) - (g.pw : Int)) * g.src.c) + (ch : Int)
      = (cellNo g r c ch 0 : Int) := by
  unfold cellNo windowCell cellIdx
  rw [hp.1, hp.2]
  push_cast
  simp
  ring

theorem cell_lt {g : Geom} (hg : g.Fits) (hp : g.Pool) {r c a b ch : Nat} (hr : r < g.rows)
    (hc : c < g.cols) (ha : a < g.kh) (hb : b < g.kw) (hch : ch < g.src.c) :
    windowCell g r c a b ch < g.src.h * g.src.w * g.src.c := by
  have h1 := placement_le hg.sh_pos hg.kh_le hr
  have h2 := placement_le hg.sw_pos hg.kw_le hc
  rw [hp.1] at h1
  rw [hp.2] at h2
  exact cellIdx_lt (by omega) (by omega) hch

theorem ki_bounds {kh kw ki : Nat} (h : ki < kh * kw) : ki / kw < kh ∧ ki % kw < kw := by
  have hw : 0 < kw := Nat.pos_of_ne_zero (by intro e; simp [e] at h)
  exact ⟨Nat.div_lt_of_lt_mul (by rwa [Nat.mul_comm]), Nat.mod_lt _ hw⟩

theorem cellNo_lt {g : Geom} (hg : g.Fits) (hp : g.Pool) {r c ki ch : Nat} (hr : r < g.rows)
    (hc : c < g.cols) (hki : ki < g.kh * g.kw) (hch : ch < g.src.c) :
    cellNo g r c ch ki < g.src.h * g.src.w * g.src.c :=
  cell_lt hg hp hr hc (ki_bounds hki).1 (ki_bounds hki).2 hch

/-! ### Average pooling -/

theorem avg_sum [Semifield α] {g : Geom} (hg : g.Fits) (hp : g.Pool) {src : List α}
    {r c ch : Nat} (hr : r < g.rows) (hc : c < g.cols) (hch : ch < g.src.c)
    (hsrc : g.src.h * g.src.w * g.src.c ≤ src.length) :
    (forUp (g.kh * g.kw) (0 : α) fun ki sum => do
      let v ← rdI src ((((r * g.sh : Nat) - (g.ph : Int)) + ((ki / g.kw : Nat) : Int))
          * ((g.src.w * g.src.c : Nat) : Int)
        + ((((c * g.sw : Nat) - (g.pw : Int)) * g.src.c) + ((ki % g.kw * g.src.c : Nat) : Int)
          + (ch : Int)))
      pure (sum + v))
    = .ok (∑ a ∈ range g.kh, ∑ b ∈ range g.kw, vec src (windowCell g r c a b ch)) := by
  have key := forUp_add (n := g.kh * g.kw) (body := fun ki sum => do
      let v ← rdI src ((((r * g.sh : Nat) - (g.ph : Int)) + ((ki / g.kw : Nat) : Int))
          * ((g.src.w * g.src.c : Nat) : Int)
        + ((((c * g.sw : Nat) - (g.pw : Int)) * g.src.c) + ((ki % g.kw * g.src.c : Nat) : Int)
          + (ch : Int)))
      pure (sum + v)) (fun a : α => a)
    (fun ki => vec src (windowCell g r c (ki / g.kw) (ki % g.kw) ch))
    (by
      intro ki hki m
      have hlt := cellNo_lt hg hp hr hc hki hch
      rw [rdI_nat (pool_pos hp r c ch ki) (by omega)]
      rfl) 0
  rw [zero_add, sum_range_mul g.kh g.kw (fun a b => vec src (windowCell g r c a b ch))] at key
  exact key

theorem avgPool_spec [Semifield α] {g : Geom} (hg : g.Fits) (hp : g.Pool) {dst src : List α}
    (hdst : g.rows * g.cols * g.src.c ≤ dst.length)
    (hsrc : g.src.h * g.src.w * g.src.c ≤ src.length) :
    ∃ d, avgPool dst src g.src (ks g) (st g) = .ok d ∧ d.length = dst.length ∧
      (∀ r c ch, r < g.rows → c < g.cols → ch < g.src.c →
        d[(r * g.cols + c) * g.src.c + ch]? =
          some ((∑ a ∈ range g.kh, ∑ b ∈ range g.kw, vec src (windowCell g r c a b ch))
            / ((g.kh * g.kw : Nat) : α))) ∧
      (∀ q, g.rows * g.cols * g.src.c ≤ q → d[q]? = dst[q]?) := by
  unfold avgPool
  have hpd : (⟨0, 0⟩ : Shape2) = pd g := by unfold pd; rw [hp.1, hp.2]
  rw [hpd]
  apply slide_fill hg (n := g.src.c) (fun r c ch =>
    (∑ a ∈ range g.kh, ∑ b ∈ range g.kw, vec src (windowCell g r c a b ch))
            / ((g.kh * g.kw : Nat) : α)) hdst
  intro r c d W hr hc hd hW F hpre
  subst hpre
  unfold avgPoolOp
  simp only [ks]
  have := forUp_pre (n := g.src.c) (step := 1) (L := (r * g.cols + c) * g.src.c)
    (N := dst.length) (V := W) (f := F) (body := fun ch dst => do
      let sum ← forUp (g.kh * g.kw) (0 : α) fun ki sum => do
        let v ← rdI src ((((r * g.sh : Nat) - (g.ph : Int)) + ((ki / g.kw : Nat) : Int))
            * ((g.src.w * g.src.c : Nat) : Int)
          + ((((c * g.sw : Nat) - (g.pw : Int)) * g.src.c) + ((ki % g.kw * g.src.c : Nat) : Int)
            + (ch : Int)))
        pure (sum + v)
      wr dst (r * (g.cols * g.src.c) + c * g.src.c + ch) (sum / ((g.kh * g.kw : Nat) : α)))
    (by
      intro ch hch
      rw [avg_sum hg hp hr hc hch hsrc, Exec.bind_ok, Nat.mul_one, Nat.mul_one, ← Nat.add_assoc]
      have e : r * (g.cols * g.src.c) + c * g.src.c + ch = (r * g.cols + c) * g.src.c + ch := by ring
      rw [e]
      exact wr_pre (lt_of_lt_of_le (out_lt hr hc hch) hdst) (hW ch hch).symm)
  rw [Nat.mul_one] at this
  exact this

/-! ### Max pooling -/

/-- Maximum of the first `n` cells, as the code computes it. -/
def runMax [LT α] [DecidableLT α] (v : Nat → α) : Nat → α
  | 0 => v 0
  | 1 => v 0
  | n + 2 => if runMax v (n + 1) < v (n + 1) then v (n + 1) else runMax v (n + 1)

theorem runMax_step [LT α] [DecidableLT α] (v : Nat → α) {n : Nat} (h : 1 ≤ n) :
    runMax v (n + 1) = if runMax v n < v n then v n else runMax v n := by
  obtain ⟨k, rfl⟩ : ∃ k, n = k + 1 := ⟨n - 1, by omega⟩
  rfl

theorem runMax_spec [LinearOrder α] (v : Nat → α) {n : Nat} (h : 1 ≤ n) :
    (∃ i, i < n ∧ runMax v n = v i) ∧ (∀ i, i < n → v i ≤ runMax v n) := by
  induction n with
  | zero => omega
  | succ n ih =>
    by_cases hn : n = 0
    · subst hn
      refine ⟨⟨0, by omega, rfl⟩, ?_⟩
      intro i hi
      have : i = 0 := by omega
      subst this
      exact le_refl _
    · obtain ⟨⟨j, hj, e⟩, hle⟩ := ih (by omega)
      rw [runMax_step v (by omega)]
      by_cases hlt : runMax v n < v n
      · rw [if_pos hlt]
        refine ⟨⟨n, by omega, rfl⟩, ?_⟩
        intro i hi
        by_cases hin : i = n
        · subst hin; exact le_refl _
        · exact le_trans (hle i (by omega)) (le_of_lt hlt)
      · rw [if_neg hlt]
        refine ⟨⟨j, by omega, e⟩, ?_⟩
        intro i hi
        by_cases hin : i = n
        · subst hin; exact not_lt.mp hlt
        · exact hle i (by omega)

theorem maxPool_spec [LT α] [DecidableLT α] [Zero α] {g : Geom} (hg : g.Fits) (hp : g.Pool)
    {dst src : List α} (hdst : g.rows * g.cols * g.src.c ≤ dst.length)
    (hsrc : g.src.h * g.src.w * g.src.c ≤ src.length) :
    ∃ d, maxPool dst src g.src (ks g) (st g) = .ok d ∧ d.length = dst.length ∧
      (∀ r c ch, r < g.rows → c < g.cols → ch < g.src.c →
        d[(r * g.cols + c) * g.src.c + ch]? =
          some (runMax (fun ki => vec src (cellNo g r c ch ki)) (g.kh * g.kw))) ∧
      (∀ q, g.rows * g.cols * g.src.c ≤ q → d[q]? = dst[q]?) := by
  unfold maxPool
  have hpd : (⟨0, 0⟩ : Shape2) = pd g := by unfold pd; rw [hp.1, hp.2]
  rw [hpd]
  have hK : 0 < g.kh * g.kw := Nat.mul_pos hg.kh_pos hg.kw_pos
  apply slide_fill hg (n := g.src.c) (fun r c ch =>
    runMax (fun ki => vec src (cellNo g r c ch ki)) (g.kh * g.kw)) hdst
  intro r c d W hr hc hd hW F hpre
  subst hpre
  unfold maxPoolOp
  simp only [ks]
  have := forUp_pre (n := g.src.c) (step := 1) (L := (r * g.cols + c) * g.src.c)
    (N := dst.length) (V := W) (f := F) (body := fun ch dst => do
      let m0 ← rdI src (((r * g.sh : Nat) - (g.ph : Int)) * ((g.src.w * g.src.c : Nat) : Int)
        + (((c * g.sw : Nat) - (g.pw : Int)) * g.src.c) + (ch : Int))
      let m ← forFrom 1 (g.kh * g.kw - 1) m0 fun ki m => do
        let v ← rdI src ((((r * g.sh : Nat) - (g.ph : Int)) + ((ki / g.kw : Nat) : Int))
            * ((g.src.w * g.src.c : Nat) : Int)
          + ((((c * g.sw : Nat) - (g.pw : Int)) * g.src.c) + ((ki % g.kw * g.src.c : Nat) : Int)
            + (ch : Int)))
        pure (if m < v then v else m)
      wr dst (r * (g.cols * g.src.c) + c * g.src.c + ch) m)
    (by
      intro ch hch
      have h0 := cellNo_lt hg hp hr hc hK hch
      rw [rdI_nat (pool_pos0 hp r c ch) (by omega), Exec.bind_ok]
      have key := forFrom_eq (i0 := 1) (k := g.kh * g.kw - 1)
        (body := fun ki m => do
          let v ← rdI src ((((r * g.sh : Nat) - (g.ph : Int)) + ((ki / g.kw : Nat) : Int))
              * ((g.src.w * g.src.c : Nat) : Int)
            + ((((c * g.sw : Nat) - (g.pw : Int)) * g.src.c) + ((ki % g.kw * g.src.c : Nat) : Int)
              + (ch : Int)))
          pure (if m < v then v else m))
        (runMax (fun ki => vec src (cellNo g r c ch ki)))
        (by
          intro ki h1 h2
          have hlt := cellNo_lt hg hp hr hc (show ki < g.kh * g.kw by omega) hch
          rw [rdI_nat (pool_pos hp r c ch ki) (by omega), Exec.bind_ok, runMax_step _ h1]
          rfl)
      rw [show 1 + (g.kh * g.kw - 1) = g.kh * g.kw by omega] at key
      have key' := key
      rw [show runMax (fun ki => vec src (cellNo g r c ch ki)) 1 = vec src (cellNo g r c ch 0)
        from rfl] at key'
      rw [key', Exec.bind_ok, Nat.mul_one, Nat.mul_one, ← Nat.add_assoc]
      have e : r * (g.cols * g.src.c) + c * g.src.c + ch = (r * g.cols + c) * g.src.c + ch := by ring
      rw [e]
      exact wr_pre (lt_of_lt_of_le (out_lt hr hc hch) hdst) (hW ch hch).symm)
  rw [Nat.mul_one] at this
  exact this

/-! ### Max pooling backward -/

/-- The triple (maximum, row offset, column offset) after `n` cells. -/
def runArg [LT α] [DecidableLT α] (v : Nat → α) (R C : Nat → Int) : Nat → α × (Int × Int)
  | 0 => (v 0, (0, 0))
  | 1 => (v 0, (0, 0))
  | n + 2 => if (runArg v R C (n + 1)).1 < v (n + 1) then (v (n + 1), (R (n + 1), C (n + 1)))
      else runArg v R C (n + 1)

theorem runArg_step [LT α] [DecidableLT α] (v : Nat → α) (R C : Nat → Int) {n : Nat} (h : 1 ≤ n) :
    runArg v R C (n + 1) = if (runArg v R C n).1 < v n then (v n, (R n, C n))
      else runArg v R C n := by
  obtain ⟨k, rfl⟩ : ∃ k, n = k + 1 := ⟨n - 1, by omega⟩
  rfl

theorem runArg_spec [LinearOrder α] (v : Nat → α) (R C : Nat → Int) {n : Nat} (h : 1 ≤ n) :
    (∀ i, i < n → v i ≤ (runArg v R C n).1) ∧
    (((runArg v R C n).1 = v 0 ∧ (runArg v R C n).2 = (0, 0)) ∨
      (∃ i, 0 < i ∧ i < n ∧ (runArg v R C n).1 = v i ∧ (runArg v R C n).2 = (R i, C i)
        ∧ ∀ j, j < i → v j < v i)) := by
  induction n with
  | zero => omega
  | succ n ih =>
    by_cases hn : n = 0
    · subst hn
      refine ⟨?_, .inl ⟨rfl, rfl⟩⟩
      intro i hi
      have : i = 0 := by omega
      subst this
      exact le_refl _
    · obtain ⟨hle, hor⟩ := ih (by omega)
      rw [runArg_step v R C (by omega)]
      by_cases hlt : (runArg v R C n).1 < v n
      · rw [if_pos hlt]
        refine ⟨?_, .inr ⟨n, by omega, by omega, rfl, rfl, fun j hj =>
          lt_of_le_of_lt (hle j hj) hlt⟩⟩
        intro i hi
        by_cases hin : i = n
        · subst hin; exact le_refl _
        · exact le_trans (hle i (by omega)) (le_of_lt hlt)
      · rw [if_neg hlt]
        refine ⟨?_, ?_⟩
        · intro i hi
          by_cases hin : i = n
          · subst hin; exact not_lt.mp hlt
          · exact hle i (by omega)
        · rcases hor with h1 | ⟨i, h1, h2, h3⟩
          · exact .inl h1
          · exact .inr ⟨i, h1, by omega, h3⟩

/-- Where the code sends the gradient of output `(r, c, ch)`. -/
def routeZ [LT α] [DecidableLT α] (g : Geom) (x : Nat → α) (r c ch : Nat) : Int × Int :=
  (runArg (fun ki => x (cellNo g r c ch ki))
    (fun ki => (((r * g.sh : Nat) - (g.ph : Int)) + ((ki / g.kw : Nat) : Int))
        * ((g.src.w * g.src.c : Nat) : Int))
    (fun ki => (((c * g.sw : Nat) - (g.pw : Int)) * g.src.c) + ((ki % g.kw * g.src.c : Nat) : Int)
          + (ch : Int)) (g.kh * g.kw)).2

/-- The same as an index. -/
def route [LT α] [DecidableLT α] (g : Geom) (x : Nat → α) (r c ch : Nat) : Nat :=
  ((routeZ g x r c ch).1 + (routeZ g x r c ch).2).toNat

theorem route_spec [LinearOrder α] {g : Geom} (hg : g.Fits) (hp : g.Pool) (x : Nat → α)
    (r c ch : Nat) :
    (routeZ g x r c ch).1 + (routeZ g x r c ch).2 = (route g x r c ch : Int) ∧
    (((∀ i, i < g.kh * g.kw → x (cellNo g r c ch i) ≤ x (cellNo g r c ch 0)) ∧
        route g x r c ch = 0) ∨
     (∃ i, 0 < i ∧ i < g.kh * g.kw ∧ route g x r c ch = cellNo g r c ch i ∧
       (∀ j, j < g.kh * g.kw → x (cellNo g r c ch j) ≤ x (cellNo g r c ch i)) ∧
       (∀ j, j < i → x (cellNo g r c ch j) < x (cellNo g r c ch i)))) := by
  have hK : 0 < g.kh * g.kw := Nat.mul_pos hg.kh_pos hg.kw_pos
  obtain ⟨hle, hor⟩ := runArg_spec (fun ki => x (cellNo g r c ch ki))
    (fun ki => (((r * g.sh : Nat) - (g.ph : Int)) + ((ki / g.kw : Nat) : Int))
        * ((g.src.w * g.src.c : Nat) : Int))
    (fun ki => (((c * g.sw : Nat) - (g.pw : Int)) * g.src.c) + ((ki % g.kw * g.src.c : Nat) : Int)
          + (ch : Int)) hK
  rcases hor with ⟨h1, h2⟩ | ⟨i, h1, h2, h3, h4, h5⟩
  · have e : routeZ g x r c ch = (0, 0) := h2
    unfold route
    rw [e]
    exact ⟨rfl, .inl ⟨fun i hi => by have := hle i hi; rwa [h1] at this, rfl⟩⟩
  · have e : routeZ g x r c ch = _ := h4
    have e2 : (routeZ g x r c ch).1 + (routeZ g x r c ch).2 = (cellNo g r c ch i : Int) := by
      rw [e]; exact pool_pos hp r c ch i
    have e3 : route g x r c ch = cellNo g r c ch i := by
      unfold route; rw [e2, Int.toNat_natCast]
    exact ⟨by rw [e3, e2], .inr ⟨i, h1, h2, e3,
      fun j hj => by have := hle j hj; rwa [h3] at this, h5⟩⟩

theorem maxGrad_eq [CommSemiring α] [LinearOrder α] {g : Geom} (hg : g.Fits) (hp : g.Pool)
    {grads src : List α} {N : Nat} (hgr : g.rows * g.cols * g.src.c ≤ grads.length)
    (hsrc : g.src.h * g.src.w * g.src.c ≤ src.length) (hN : g.src.h * g.src.w * g.src.c ≤ N)
    (m : Nat → α) :
    kernelSlide (maxGradOp grads src g.src (ks g)) g.src (ks g) (st g) ⟨0, 0⟩ (tab N m)
    = .ok (tab N (m + ∑ r ∈ range g.rows, ∑ c ∈ range g.cols, ∑ ch ∈ range g.src.c,
        at1 (route g (vec src) r c ch) (vec grads ((r * g.cols + c) * g.src.c + ch)))) := by
  have hpd : (⟨0, 0⟩ : Shape2) = pd g := by unfold pd; rw [hp.1, hp.2]
  have hK : 0 < g.kh * g.kw := Nat.mul_pos hg.kh_pos hg.kw_pos
  rw [hpd, kernelSlide_eq hg]
  apply forUp_add (tab N)
  intro r hr m
  apply forUp_add (tab N)
  intro c hc m
  unfold maxGradOp
  apply forUp_add (tab N)
  intro ch hch m
  simp only [ks]
  have e : r * (g.cols * g.src.c) + c * g.src.c + ch = (r * g.cols + c) * g.src.c + ch := by ring
  have h0 := cellNo_lt hg hp hr hc hK hch
  rw [e, rd_vec (lt_of_lt_of_le (out_lt hr hc hch) hgr), Exec.bind_ok,
    rdI_nat (pool_pos0 hp r c ch) (by omega), Exec.bind_ok]
  have key := forFrom_eq (i0 := 1) (k := g.kh * g.kw - 1)
    (body := fun ki (m : α × (Int × Int)) => do
      let v ← rdI src ((((r * g.sh : Nat) - (g.ph : Int)) + ((ki / g.kw : Nat) : Int))
          * ((g.src.w * g.src.c : Nat) : Int)
        + ((((c * g.sw : Nat) - (g.pw : Int)) * g.src.c) + ((ki % g.kw * g.src.c : Nat) : Int)
          + (ch : Int)))
      pure (if m.1 < v then (v, ((((r * g.sh : Nat) - (g.ph : Int)) + ((ki / g.kw : Nat) : Int))
          * ((g.src.w * g.src.c : Nat) : Int),
          (((c * g.sw : Nat) - (g.pw : Int)) * g.src.c) + ((ki % g.kw * g.src.c : Nat) : Int)
          + (ch : Int))) else m))
    (runArg (fun ki => vec src (cellNo g r c ch ki))
      (fun ki => (((r * g.sh : Nat) - (g.ph : Int)) + ((ki / g.kw : Nat) : Int))
        * ((g.src.w * g.src.c : Nat) : Int))
      (fun ki => (((c * g.sw : Nat) - (g.pw : Int)) * g.src.c) + ((ki % g.kw * g.src.c : Nat) : Int)
          + (ch : Int)))
    (by
      intro ki h1 h2
      have hlt := cellNo_lt hg hp hr hc (show ki < g.kh * g.kw by omega) hch
      rw [rdI_nat (pool_pos hp r c ch ki) (by omega), Exec.bind_ok, runArg_step _ _ _ h1]
      rfl)
  rw [show 1 + (g.kh * g.kw - 1) = g.kh * g.kw by omega] at key
  have key' := key
  rw [show runArg (fun ki => vec src (cellNo g r c ch ki)) _ _ 1
    = (vec src (cellNo g r c ch 0), ((0 : Int), (0 : Int))) from rfl] at key'
  obtain ⟨hz, hroute⟩ := route_spec hg hp (vec src) r c ch
  have hlt : route g (vec src) r c ch < N := by
    rcases hroute with ⟨_, h⟩ | ⟨i, _, h2, h3, _⟩
    · rw [h]; omega
    · rw [h3]
      exact lt_of_lt_of_le (cellNo_lt hg hp hr hc h2 hch) hN
  refine Eq.trans (congrArg (· >>= _) key') ?_
  rw [Exec.bind_ok]
  change (rdI (tab N m) ((routeZ g (vec src) r c ch).1 + (routeZ g (vec src) r c ch).2) >>= fun i0 =>
    wr (tab N m) ((routeZ g (vec src) r c ch).1 + (routeZ g (vec src) r c ch).2).toNat
      (i0 + vec grads ((r * g.cols + c) * g.src.c + ch))) = _
  rw [hz, Int.toNat_natCast, rdI, if_neg (by omega), Int.toNat_natCast, rd_tab _ hlt, Exec.bind_ok]
  exact wr_add hlt

/-! ### Average pooling backward -/

theorem forFrom_add {σ M : Type _} [AddCommMonoid M] {k i0 : Nat} {body : Nat → σ → Exec σ}
    (enc : M → σ) (A : Nat → M)
    (h : ∀ i, i0 ≤ i → i < i0 + k → ∀ m, body i (enc m) = .ok (enc (m + A i))) (m : M) :
    forFrom i0 k (enc m) body = .ok (enc (m + ∑ i ∈ range k, A (i0 + i))) := by
  induction k generalizing i0 m with
  | zero => simp [forFrom]
  | succ k ih =>
    simp only [forFrom]
    rw [h i0 (Nat.le_refl _) (by omega), Exec.bind_ok,
      ih (fun i h1 h2 => h i (by omega) (by omega)), sum_range_succ', add_assoc]
    congr 3
    rw [add_comm, Nat.add_zero]
    congr 1
    apply sum_congr rfl
    intro i _
    congr 1
    omega

theorem sum_skip_zero {M : Type _} [AddCommMonoid M] {n : Nat} (A : Nat → M) :
    ∑ i ∈ range (n - 1), A (1 + i) = ∑ i ∈ range n, if i = 0 then 0 else A i := by
  cases n with
  | zero => simp
  | succ n =>
    rw [sum_range_succ']
    simp [Nat.add_comm]

theorem avgGrad_eq [Field α] {g : Geom} (hg : g.Fits) (hp : g.Pool)
    {grads : List α} {N : Nat} (hgr : g.rows * g.cols * g.src.c ≤ grads.length)
    (hN : g.src.h * g.src.w * g.src.c ≤ N) (m : Nat → α) :
    kernelSlide (avgGradOp grads g.src (ks g)) g.src (ks g) (st g) ⟨0, 0⟩ (tab N m)
    = .ok (tab N (m + ∑ r ∈ range g.rows, ∑ c ∈ range g.cols, ∑ ch ∈ range g.src.c,
        ∑ a ∈ range g.kh, ∑ b ∈ range g.kw, if a = 0 ∧ b = 0 then 0 else
          at1 (windowCell g r c a b ch)
            (vec grads ((r * g.cols + c) * g.src.c + ch) / ((g.kh * g.kw : Nat) : α)))) := by
  have hpd : (⟨0, 0⟩ : Shape2) = pd g := by unfold pd; rw [hp.1, hp.2]
  rw [hpd, kernelSlide_eq hg]
  apply forUp_add (tab N)
  intro r hr m
  apply forUp_add (tab N)
  intro c hc m
  unfold avgGradOp
  apply forUp_add (tab N)
  intro ch hch m
  simp only [ks]
  have e : r * (g.cols * g.src.c) + c * g.src.c + ch = (r * g.cols + c) * g.src.c + ch := by ring
  rw [e, rd_vec (lt_of_lt_of_le (out_lt hr hc hch) hgr), Exec.bind_ok]
  have key := forFrom_add (i0 := 1) (k := g.kh * g.kw - 1)
    (body := fun ki ig => do
      let i0 ← rdI ig ((((r * g.sh : Nat) - (g.ph : Int)) + ((ki / g.kw : Nat) : Int))
          * ((g.src.w * g.src.c : Nat) : Int)
        + ((((c * g.sw : Nat) - (g.pw : Int)) * g.src.c) + ((ki % g.kw * g.src.c : Nat) : Int)
          + (ch : Int)))
      wr ig ((((r * g.sh : Nat) - (g.ph : Int)) + ((ki / g.kw : Nat) : Int))
          * ((g.src.w * g.src.c : Nat) : Int)
        + ((((c * g.sw : Nat) - (g.pw : Int)) * g.src.c) + ((ki % g.kw * g.src.c : Nat) : Int)
          + (ch : Int))).toNat
        (i0 + vec grads ((r * g.cols + c) * g.src.c + ch) / ((g.kw * g.kh : Nat) : α)))
    (tab N) (fun ki => at1 (cellNo g r c ch ki)
      (vec grads ((r * g.cols + c) * g.src.c + ch) / ((g.kw * g.kh : Nat) : α)))
    (by
      intro ki h1 h2 m
      have hlt := cellNo_lt hg hp hr hc (show ki < g.kh * g.kw by omega) hch
      rw [pool_pos hp r c ch ki, rdI, if_neg (by omega), Int.toNat_natCast, rd_tab _ (by omega),
        Exec.bind_ok, wr_add (by omega)]) m
  refine key.trans ?_
  congr 3
  rw [sum_skip_zero (n := g.kh * g.kw) (fun ki => at1 (cellNo g r c ch ki)
      (vec grads ((r * g.cols + c) * g.src.c + ch) / ((g.kw * g.kh : Nat) : α))),
    ← sum_range_mul g.kh g.kw (fun a b => if a = 0 ∧ b = 0 then 0 else
          at1 (windowCell g r c a b ch)
            (vec grads ((r * g.cols + c) * g.src.c + ch) / ((g.kh * g.kw : Nat) : α)))]
  apply sum_congr rfl
  intro ki hki
  have hiff : ki = 0 ↔ (ki / g.kw = 0 ∧ ki % g.kw = 0) := by
    constructor
    · rintro rfl; simp
    · rintro ⟨h1, h2⟩
      have := Nat.div_add_mod' ki g.kw
      rw [h1, h2] at this; omega
  by_cases h : ki = 0
  · rw [if_pos h, if_pos (hiff.mp h)]
  · rw [if_neg h, if_neg (fun h' => h (hiff.mpr h')), Nat.mul_comm g.kw g.kh]
    rfl

end Verif.Slide

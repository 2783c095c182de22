import Verif.Proofs.Rounding

/-
The sliding-window kernels for a number type without any laws: what they compute, in program order.
-/

namespace Verif.Slide
open Spec Finset Verif.Float

variable {α : Type _}

/-- A loop whose every step returns. -/
theorem forUp_steps {σ : Type _} {n : Nat} {s : σ} {body : Nat → σ → Exec σ} (F : Nat → σ)
    (h0 : F 0 = s) (h : ∀ i, i < n → body i (F i) = .ok (F (i + 1))) :
    forUp n s body = .ok (F n) := by
  induction n with
  | zero => simp [forUp, forFrom, h0]
  | succ n ih =>
    rw [forUp_succ, ih fun i hi => h i (by omega), Exec.bind_ok]
    exact h n (by omega)

/-- Whether cell `ki` of the window at output `(r, c)` lies inside the source. -/
def Inside (g : Geom) (r c ki : Nat) : Prop :=
  0 ≤ rowOf g r (ki / (g.kw * g.src.c)) ∧ rowOf g r (ki / (g.kw * g.src.c)) < g.src.h ∧
  0 ≤ colOf g c (ki % (g.kw * g.src.c) / g.src.c) ∧ colOf g c (ki % (g.kw * g.src.c) / g.src.c) < g.src.w

instance (g : Geom) (r c : Nat) : DecidablePred (Inside g r c) := fun _ => by
  unfold Inside; infer_instance

/-- The cell of the zero-padded source below cell `ki` of the window. -/
def under [Zero α] (g : Geom) (x : Nat → α) (r c ki : Nat) : α :=
  padded x g.src (rowOf g r (ki / (g.kw * g.src.c))) (colOf g c (ki % (g.kw * g.src.c) / g.src.c))
    (ki % (g.kw * g.src.c) % g.src.c)

theorem conv_ord [Zero α] [Add α] [Mul α] {g : Geom} {nf r c f : Nat} {src k : List α}
    (hsrc : g.src.h * g.src.w * g.src.c ≤ src.length)
    (hk : g.kh * g.kw * g.src.c * nf ≤ k.length) (hf : f < nf) :
    (forUp (g.kh * g.kw * g.src.c) (0 : α) fun ki sum =>
      let rowSrc : Int := ((r * g.sh : Nat) - (g.ph : Int)) + ((ki / (g.kw * g.src.c) : Nat) : Int)
      let colSrc : Int := (((c * g.sw : Nat) - (g.pw : Int)) * g.src.c)
        + ((ki % (g.kw * g.src.c) : Nat) : Int)
      if colSrc < 0 ∨ rowSrc < 0 ∨ colSrc ≥ ((g.src.w * g.src.c : Nat) : Int)
          ∨ rowSrc ≥ (g.src.h : Int) then
        pure sum
      else do
        let x ← rdI src (rowSrc * ((g.src.w * g.src.c : Nat) : Int) + colSrc)
        let w ← rd k (ki * nf + f)
        pure (sum + x * w))
      = .ok (ordSumIf (Inside g r c) 0 (g.kh * g.kw * g.src.c) fun ki =>
          under g (vec src) r c ki * vec k (ki * nf + f)) := by
  refine forUp_steps (fun m => ordSumIf (Inside g r c) 0 m fun ki =>
          under g (vec src) r c ki * vec k (ki * nf + f)) rfl ?_
  intro ki hki
  obtain ⟨hc, hw, ha, hb, hch, hkie⟩ := ki_split g hki
  show _ = Exec.ok (if Inside g r c ki then _ else _)
  generalize ordSumIf (Inside g r c) 0 ki _ = S
  simp only [row_code, col_code]
  have hg := guard_iff (s := g.src) (i := rowOf g r (ki / (g.kw * g.src.c)))
    (j := colOf g c (ki % (g.kw * g.src.c) / g.src.c)) hch
  by_cases hin : Inside g r c ki
  · rw [if_pos hin]
    unfold under padded
    unfold Inside at hin
    rw [if_pos hin]
    generalize ki / (g.kw * g.src.c) = a at *
    generalize ki % (g.kw * g.src.c) / g.src.c = b at *
    generalize ki % (g.kw * g.src.c) % g.src.c = ch at *
    rw [if_neg (by rw [hg]; simpa using hin)]
    have hlt : cellIdx g.src (rowOf g r a).toNat (colOf g c b).toNat ch < src.length :=
      lt_of_lt_of_le (cellIdx_lt (by omega) (by omega) hch) hsrc
    have hkl : ki * nf + f < k.length := lt_of_lt_of_le (rowmajor_lt hki hf) hk
    rw [rdI_nat (pos_eq hin.1 hin.2.2.1) hlt, Exec.bind_ok, rd_vec hkl, Exec.bind_ok]
    rfl
  · rw [if_neg hin]
    unfold Inside at hin
    rw [if_pos (by rw [hg]; exact hin)]
    rfl

theorem crossCorrelation_ord [Zero α] [Add α] [Mul α] {g : Geom} (hg : g.Fits) {nf : Nat}
    {dst src k : List α} (hdst : g.rows * g.cols * nf ≤ dst.length)
    (hsrc : g.src.h * g.src.w * g.src.c ≤ src.length)
    (hk : g.kh * g.kw * g.src.c * nf ≤ k.length) :
    ∃ d, crossCorrelation dst src g.src k (ks g) nf (st g) (pd g) = .ok d ∧
      d.length = dst.length ∧
      (∀ r c f, r < g.rows → c < g.cols → f < nf →
        d[(r * g.cols + c) * nf + f]? =
          some (ordSumIf (Inside g r c) 0 (g.kh * g.kw * g.src.c) fun ki =>
            under g (vec src) r c ki * vec k (ki * nf + f))) ∧
      (∀ q, g.rows * g.cols * nf ≤ q → d[q]? = dst[q]?) := by
  unfold crossCorrelation
  apply slide_fill hg (n := nf) (fun r c f =>
    ordSumIf (Inside g r c) 0 (g.kh * g.kw * g.src.c) fun ki =>
            under g (vec src) r c ki * vec k (ki * nf + f)) hdst
  intro r c d W hr hc hd hW F hpre
  subst hpre
  unfold conv4dOp
  simp only [ks]
  have := forUp_pre (n := nf) (step := 1) (L := (r * g.cols + c) * nf) (N := dst.length) (V := W)
    (f := F) (body := fun f dst => do
      let sum ← forUp (g.kh * g.kw * g.src.c) (0 : α) fun ki sum =>
        let rowSrc : Int := ((r * g.sh : Nat) - (g.ph : Int))
          + ((ki / (g.kw * g.src.c) : Nat) : Int)
        let colSrc : Int := (((c * g.sw : Nat) - (g.pw : Int)) * g.src.c)
          + ((ki % (g.kw * g.src.c) : Nat) : Int)
        if colSrc < 0 ∨ rowSrc < 0 ∨ colSrc ≥ ((g.src.w * g.src.c : Nat) : Int)
            ∨ rowSrc ≥ (g.src.h : Int) then
          pure sum
        else do
          let x ← rdI src (rowSrc * ((g.src.w * g.src.c : Nat) : Int) + colSrc)
          let w ← rd k (ki * nf + f)
          pure (sum + x * w)
      wr dst (r * g.cols * nf + c * nf + f) sum)
    (by
      intro f hf
      rw [conv_ord hsrc hk hf, Exec.bind_ok, Nat.mul_one, Nat.mul_one, ← Nat.add_assoc]
      have e : r * g.cols * nf + c * nf + f = (r * g.cols + c) * nf + f := by ring
      rw [e]
      exact wr_pre (lt_of_lt_of_le (out_lt hr hc hf) hdst) (hW f hf).symm)
  rw [Nat.mul_one] at this
  exact this

theorem avgPool_ord [Zero α] [Add α] [Div α] [NatCast α] {g : Geom} (hg : g.Fits) (hp : g.Pool)
    {dst src : List α} (hdst : g.rows * g.cols * g.src.c ≤ dst.length)
    (hsrc : g.src.h * g.src.w * g.src.c ≤ src.length) :
    ∃ d, avgPool dst src g.src (ks g) (st g) = .ok d ∧ d.length = dst.length ∧
      (∀ r c ch, r < g.rows → c < g.cols → ch < g.src.c →
        d[(r * g.cols + c) * g.src.c + ch]? =
          some (ordSum 0 (g.kh * g.kw) (fun ki => vec src (cellNo g r c ch ki))
            / ((g.kh * g.kw : Nat) : α))) ∧
      (∀ q, g.rows * g.cols * g.src.c ≤ q → d[q]? = dst[q]?) := by
  unfold avgPool
  have hpd : (⟨0, 0⟩ : Shape2) = pd g := by unfold pd; rw [hp.1, hp.2]
  rw [hpd]
  apply slide_fill hg (n := g.src.c) (fun r c ch =>
    ordSum 0 (g.kh * g.kw) (fun ki => vec src (cellNo g r c ch ki)) / ((g.kh * g.kw : Nat) : α)) hdst
  intro r c d W hr hc hd hW F hpre
  subst hpre
  unfold avgPoolOp
  simp only [ks]
  have := forUp_pre (n := g.src.c) (step := 1) (L := (r * g.cols + c) * g.src.c)
    (N := dst.length) (V := W) (f := F) (body := fun ch dst => do
      let sum ← forUp (g.kh * g.kw) (0 : α) fun ki sum => do
        let v ← rdI src ((((r * g.sh : Nat) - (g.ph : Int)) + ((ki / g.kw : Nat) : Int))
            * ((g.src.w * g.src.c : Nat) : Int)
          + ((((c * g.sw : Nat) - (g.pw : Int)) * g.src.c) + ((ki % g.kw * g.src.c : Nat) : Int)
            + (ch : Int)))
        pure (sum + v)
      wr dst (r * (g.cols * g.src.c) + c * g.src.c + ch) (sum / ((g.kh * g.kw : Nat) : α)))
    (by
      intro ch hch
      have hsum := forUp_steps (n := g.kh * g.kw) (s := (0 : α)) (body := fun ki sum => do
          let v ← rdI src ((((r * g.sh : Nat) - (g.ph : Int)) + ((ki / g.kw : Nat) : Int))
              * ((g.src.w * g.src.c : Nat) : Int)
            + ((((c * g.sw : Nat) - (g.pw : Int)) * g.src.c) + ((ki % g.kw * g.src.c : Nat) : Int)
              + (ch : Int)))
          pure (sum + v))
        (fun m => ordSum 0 m fun ki => vec src (cellNo g r c ch ki)) rfl (by
          intro ki hki
          have hlt := cellNo_lt hg hp hr hc hki hch
          rw [rdI_nat (pool_pos hp r c ch ki) (by omega)]
          rfl)
      rw [hsum, Exec.bind_ok, Nat.mul_one, Nat.mul_one, ← Nat.add_assoc]
      have e : r * (g.cols * g.src.c) + c * g.src.c + ch = (r * g.cols + c) * g.src.c + ch := by ring
      rw [e]
      exact wr_pre (lt_of_lt_of_le (out_lt hr hc hch) hdst) (hW ch hch).symm)
  rw [Nat.mul_one] at this
  exact this

end Verif.Slide

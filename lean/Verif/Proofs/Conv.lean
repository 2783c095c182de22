import Verif.Proofs.Slide
import Verif.Spec.Dense
import Mathlib.Analysis.Calculus.Deriv.Add
import Mathlib.Analysis.Calculus.Deriv.Mul

namespace Verif.Slide
open Verif.Spec Finset

variable {α : Type _}

/-- `v` at cell `i`, zero elsewhere. -/
def at1 [Zero α] (i : Nat) (v : α) : Nat → α := fun q => if q = i then v else 0

theorem wr_add [CommSemiring α] {N i : Nat} {a : Nat → α} {v : α} (h : i < N) :
    wr (tab N a) i (a i + v) = .ok (tab N (a + at1 i v)) := by
  rw [wr_tab _ _ h]
  congr 1
  apply tab_congr
  intro q _
  unfold upd at1
  by_cases e : q = i
  · subst e; simp
  · simp [e]

/-- Contribution of one output position, filter and kernel cell to the gradients. -/
def convLeaf [CommSemiring α] (g : Geom) (nf : Nat) (grad x k : Nat → α) (r c f a b ch : Nat) :
    (Nat → α) × (Nat → α) :=
  if inside g.src (rowOf g r a) (colOf g c b) then
    (at1 (cellIdx g.src (rowOf g r a).toNat (colOf g c b).toNat ch)
        (k (((a * g.kw + b) * g.src.c + ch) * nf + f) * grad ((r * g.cols + c) * nf + f)),
     at1 (((a * g.kw + b) * g.src.c + ch) * nf + f)
        (x (cellIdx g.src (rowOf g r a).toNat (colOf g c b).toNat ch)
          * grad ((r * g.cols + c) * nf + f)))
  else 0

theorem convGrad_inner [CommSemiring α] {g : Geom} {nf r c f : Nat} {src k : List α}
    {grad : Nat → α} {N1 N2 : Nat}
    (hsrc : g.src.h * g.src.w * g.src.c ≤ src.length)
    (hk : g.kh * g.kw * g.src.c * nf ≤ k.length)
    (hN1 : g.src.h * g.src.w * g.src.c ≤ N1) (hN2 : g.kh * g.kw * g.src.c * nf ≤ N2)
    (hf : f < nf) (m : (Nat → α) × (Nat → α)) :
    (forUp (g.kh * g.kw * g.src.c) (tab N1 m.1, tab N2 m.2) fun ki st =>
      let rowSrc : Int := ((r * g.sh : Nat) - (g.ph : Int)) + ((ki / (g.kw * g.src.c) : Nat) : Int)
      let colSrc : Int := (((c * g.sw : Nat) - (g.pw : Int)) * g.src.c)
        + ((ki % (g.kw * g.src.c) : Nat) : Int)
      if colSrc < 0 ∨ rowSrc < 0 ∨ colSrc ≥ ((g.src.w * g.src.c : Nat) : Int)
          ∨ rowSrc ≥ (g.src.h : Int) then
        pure st
      else do
        let w ← rd k (ki * nf + f)
        let i0 ← rdI st.1 (rowSrc * ((g.src.w * g.src.c : Nat) : Int) + colSrc)
        let ig ← wr st.1 (rowSrc * ((g.src.w * g.src.c : Nat) : Int) + colSrc).toNat
          (i0 + w * grad ((r * g.cols + c) * nf + f))
        let x ← rdI src (rowSrc * ((g.src.w * g.src.c : Nat) : Int) + colSrc)
        let w0 ← rd st.2 (ki * nf + f)
        let wg ← wr st.2 (ki * nf + f) (w0 + x * grad ((r * g.cols + c) * nf + f))
        pure (ig, wg))
      = .ok ((fun m : (Nat → α) × (Nat → α) => (tab N1 m.1, tab N2 m.2)) (m +
        ∑ a ∈ range g.kh, ∑ b ∈ range g.kw, ∑ ch ∈ range g.src.c,
          convLeaf g nf grad (vec src) (vec k) r c f a b ch)) := by
  rw [← sum_ki g (fun a b ch => convLeaf g nf grad (vec src) (vec k) r c f a b ch)]
  apply forUp_add (fun m : (Nat → α) × (Nat → α) => (tab N1 m.1, tab N2 m.2))
  intro ki hki m
  obtain ⟨hc, hw, ha, hb, hch, hkie⟩ := ki_split g hki
  simp only [row_code, col_code]
  generalize ki / (g.kw * g.src.c) = a at *
  generalize ki % (g.kw * g.src.c) / g.src.c = b at *
  generalize ki % (g.kw * g.src.c) % g.src.c = ch at *
  have hg := guard_iff (s := g.src) (i := rowOf g r a) (j := colOf g c b) hch
  by_cases hin : inside g.src (rowOf g r a) (colOf g c b)
  · rw [if_neg (by rw [hg]; unfold inside at hin; simpa using hin)]
    have hcl : cellIdx g.src (rowOf g r a).toNat (colOf g c b).toNat ch
        < g.src.h * g.src.w * g.src.c := by
      unfold inside at hin
      exact cellIdx_lt (by omega) (by omega) hch
    have hkk : ki * nf + f < g.kh * g.kw * g.src.c * nf := rowmajor_lt hki hf
    rw [pos_eq hin.1 hin.2.2.1, rd_vec (by omega), Exec.bind_ok, rdI, if_neg (by omega),
      Int.toNat_natCast, rd_tab _ (by omega), Exec.bind_ok, wr_add (by omega), Exec.bind_ok,
      rdI_nat rfl (by omega), Exec.bind_ok, rd_tab _ (by omega), Exec.bind_ok,
      wr_add (by omega), Exec.bind_ok]
    unfold convLeaf
    rw [if_pos hin, ← hkie]
    rfl
  · rw [if_pos (by rw [hg]; exact hin)]
    unfold convLeaf
    rw [if_neg hin, add_zero]
    rfl

/-- Gradients computed by the slide of `ConvolutionalLayer::backward`. -/
theorem convGrad_eq [CommSemiring α] {g : Geom} (hg : g.Fits) {nf : Nat} {grads src k : List α}
    {N1 N2 : Nat} (hgr : g.rows * g.cols * nf ≤ grads.length)
    (hsrc : g.src.h * g.src.w * g.src.c ≤ src.length)
    (hk : g.kh * g.kw * g.src.c * nf ≤ k.length)
    (hN1 : g.src.h * g.src.w * g.src.c ≤ N1) (hN2 : g.kh * g.kw * g.src.c * nf ≤ N2)
    (m : (Nat → α) × (Nat → α)) :
    kernelSlide (convGradOp grads src g.src k (ks g) nf) g.src (ks g) (st g) (pd g)
      (tab N1 m.1, tab N2 m.2)
    = .ok ((fun m : (Nat → α) × (Nat → α) => (tab N1 m.1, tab N2 m.2)) (m +
        ∑ r ∈ range g.rows, ∑ c ∈ range g.cols, ∑ f ∈ range nf,
          ∑ a ∈ range g.kh, ∑ b ∈ range g.kw, ∑ ch ∈ range g.src.c,
            convLeaf g nf (vec grads) (vec src) (vec k) r c f a b ch)) := by
  rw [kernelSlide_eq hg]
  apply forUp_add (fun m : (Nat → α) × (Nat → α) => (tab N1 m.1, tab N2 m.2))
  intro r hr m
  apply forUp_add (fun m : (Nat → α) × (Nat → α) => (tab N1 m.1, tab N2 m.2))
  intro c hc m
  unfold convGradOp
  apply forUp_add (fun m : (Nat → α) × (Nat → α) => (tab N1 m.1, tab N2 m.2))
  intro f hf m
  have e : r * g.cols * nf + c * nf + f = (r * g.cols + c) * nf + f := by ring
  rw [e, rd_vec (lt_of_lt_of_le (out_lt hr hc hf) hgr), Exec.bind_ok]
  exact convGrad_inner hsrc hk hN1 hN2 hf m

/-! ### The sums are derivatives -/

theorem padded_replace_deriv (s : Shape3) (x : Nat → ℝ) (i j : Int) (ch q : Nat) :
    HasDerivAt (fun t => padded (replace x q t) s i j ch)
      (if inside s i j ∧ q = cellIdx s i.toNat j.toNat ch then 1 else 0) (x q) := by
  unfold padded
  by_cases h : 0 ≤ i ∧ i < s.h ∧ 0 ≤ j ∧ j < s.w
  · simp only [if_pos h]
    have h' : inside s i j := h
    unfold replace
    by_cases e : cellIdx s i.toNat j.toNat ch = q
    · simp only [if_pos e, h', e, and_self, if_true]
      exact hasDerivAt_id _
    · simp only [if_neg e]
      rw [if_neg (by rintro ⟨_, e'⟩; exact e e'.symm)]
      exact hasDerivAt_const _ _
  · simp only [if_neg h]
    rw [if_neg (by rintro ⟨h', _⟩; exact h h')]
    exact hasDerivAt_const _ _

theorem fst_sum {ι M N : Type _} [AddCommMonoid M] [AddCommMonoid N] (s : Finset ι)
    (f : ι → M × N) : (∑ i ∈ s, f i).1 = ∑ i ∈ s, (f i).1 := Prod.fst_sum
theorem snd_sum {ι M N : Type _} [AddCommMonoid M] [AddCommMonoid N] (s : Finset ι)
    (f : ι → M × N) : (∑ i ∈ s, f i).2 = ∑ i ∈ s, (f i).2 := Prod.snd_sum

theorem conv_input_deriv (g : Geom) (nf : Nat) (grad x k : Nat → ℝ) (q : Nat) :
    HasDerivAt (fun t => convObjective g nf grad (replace x q t) k)
      ((∑ r ∈ range g.rows, ∑ c ∈ range g.cols, ∑ f ∈ range nf,
          ∑ a ∈ range g.kh, ∑ b ∈ range g.kw, ∑ ch ∈ range g.src.c,
            convLeaf g nf grad x k r c f a b ch).1 q) (x q) := by
  simp only [fst_sum, Finset.sum_apply]
  unfold convObjective
  refine HasDerivAt.fun_sum fun r _ => HasDerivAt.fun_sum fun c _ => HasDerivAt.fun_sum fun f _ => ?_
  unfold corr
  simp only [Finset.mul_sum]
  refine HasDerivAt.fun_sum fun a _ => HasDerivAt.fun_sum fun b _ => HasDerivAt.fun_sum fun ch _ => ?_
  have h := ((padded_replace_deriv g.src x (rowOf g r a) (colOf g c b) ch q).mul_const
    (k (((a * g.kw + b) * g.src.c + ch) * nf + f))).const_mul (grad ((r * g.cols + c) * nf + f))
  refine h.congr_deriv ?_
  unfold convLeaf
  by_cases hin : inside g.src (rowOf g r a) (colOf g c b)
  · rw [if_pos hin]
    unfold at1
    by_cases e : q = cellIdx g.src (rowOf g r a).toNat (colOf g c b).toNat ch
    · simp only [if_pos e, if_pos (And.intro hin e)]; ring
    · rw [if_neg (by rintro ⟨_, e'⟩; exact e e')]; simp [e]
  · rw [if_neg hin, if_neg (by rintro ⟨h', _⟩; exact hin h')]; simp

theorem conv_weight_deriv (g : Geom) (nf : Nat) (grad x k : Nat → ℝ) (q : Nat) :
    HasDerivAt (fun t => convObjective g nf grad x (replace k q t))
      ((∑ r ∈ range g.rows, ∑ c ∈ range g.cols, ∑ f ∈ range nf,
          ∑ a ∈ range g.kh, ∑ b ∈ range g.kw, ∑ ch ∈ range g.src.c,
            convLeaf g nf grad x k r c f a b ch).2 q) (k q) := by
  simp only [snd_sum, Finset.sum_apply]
  unfold convObjective
  refine HasDerivAt.fun_sum fun r _ => HasDerivAt.fun_sum fun c _ => HasDerivAt.fun_sum fun f _ => ?_
  unfold corr
  simp only [Finset.mul_sum]
  refine HasDerivAt.fun_sum fun a _ => HasDerivAt.fun_sum fun b _ => HasDerivAt.fun_sum fun ch _ => ?_
  have hk : HasDerivAt (fun t => replace k q t (((a * g.kw + b) * g.src.c + ch) * nf + f))
      (if q = ((a * g.kw + b) * g.src.c + ch) * nf + f then 1 else 0) (k q) := by
    unfold replace
    by_cases e : ((a * g.kw + b) * g.src.c + ch) * nf + f = q
    · simp only [if_pos e, if_pos e.symm]; exact hasDerivAt_id _
    · simp only [if_neg e]
      rw [if_neg (fun e' => e e'.symm)]
      exact hasDerivAt_const _ _
  have h := (hk.const_mul (padded x g.src (rowOf g r a) (colOf g c b) ch)).const_mul
    (grad ((r * g.cols + c) * nf + f))
  refine h.congr_deriv ?_
  unfold convLeaf padded
  by_cases hin : inside g.src (rowOf g r a) (colOf g c b)
  · have hin' := hin
    unfold inside at hin'
    rw [if_pos hin, if_pos hin']
    unfold at1
    by_cases e : q = ((a * g.kw + b) * g.src.c + ch) * nf + f
    · simp only [if_pos e]; ring
    · simp only [if_neg e]; simp
  · have hin' := hin
    unfold inside at hin'
    rw [if_neg hin, if_neg hin']; simp

/-! ### Bias gradients -/

theorem convBiasGrads_eq [CommSemiring α] {grads bg : List α} {o : Shape3} {nf : Nat}
    (hg : o.h * o.w * nf ≤ grads.length) (hb : bg.length = nf) :
    convBiasGrads grads bg o nf = .ok (tab nf fun f =>
      ∑ r ∈ range o.h, ∑ c ∈ range o.w, vec grads ((r * o.w + c) * nf + f)) := by
  unfold convBiasGrads
  conv_lhs => rw [eq_tab bg]
  rw [hb]
  rw [forUp_tab (n := nf) (L := nf) (f := vec bg) (r := fun f =>
      ∑ r ∈ range o.h, ∑ c ∈ range o.w, vec grads ((r * o.w + c) * nf + f)) (Nat.le_refl _) ?_]
  · congr 1
    exact tab_congr fun i hi => by rw [if_pos hi]
  · intro f u hf
    have key := forUp_add (n := o.h) (body := fun r sum => forUp o.w sum fun c sum => do
        let g ← rd grads (r * (o.w * nf) + c * nf + f)
        pure (sum + g)) (fun a : α => a)
      (fun r => ∑ c ∈ range o.w, vec grads ((r * o.w + c) * nf + f))
      (by
        intro r hr m
        apply forUp_add (fun a : α => a)
        intro c hc m
        have e : r * (o.w * nf) + c * nf + f = (r * o.w + c) * nf + f := by ring
        rw [e, rd_vec (lt_of_lt_of_le (out_lt hr hc hf) hg)]
        rfl) 0
    rw [zero_add] at key
    rw [key, Exec.bind_ok, wr_tab _ _ hf]

end Verif.Slide

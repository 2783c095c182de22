import Verif.Proofs.BackConv
import Verif.Props.Slide

/-! The pooling layers, and all layers together. -/

namespace Verif.Net
open Verif.Spec Verif.Slide Finset

noncomputable section

/-- The output of max pooling, by cell number. -/
def poolOut (g : Geom) (x : Nat → ℝ) (i : Nat) : ℝ :=
  runMax (fun ki => x (cellNo g (i / g.src.c / g.cols) (i / g.src.c % g.cols) (i % g.src.c) ki))
    (g.kh * g.kw)

theorem out_split {r c f C F : Nat} (hc : c < C) (hf : f < F) :
    ((r * C + c) * F + f) / F / C = r ∧ ((r * C + c) * F + f) / F % C = c ∧
    ((r * C + c) * F + f) % F = f := by
  have e1 : ((r * C + c) * F + f) / F = r * C + c := by
    rw [Nat.mul_comm, Nat.mul_add_div (by omega), Nat.div_eq_of_lt hf, Nat.add_zero]
  refine ⟨?_, ?_, ?_⟩
  · rw [e1, Nat.mul_comm, Nat.mul_add_div (by omega), Nat.div_eq_of_lt hc, Nat.add_zero]
  · rw [e1, Nat.mul_comm, Nat.mul_add_mod, Nat.mod_eq_of_lt hc]
  · rw [Nat.mul_comm, Nat.mul_add_mod, Nat.mod_eq_of_lt hf]

theorem out_bounds {i R C F : Nat} (h : i < R * C * F) :
    i / F / C < R ∧ i / F % C < C ∧ i % F < F ∧ (i / F / C * C + i / F % C) * F + i % F = i := by
  have hF : 0 < F := Nat.pos_of_ne_zero (by rintro rfl; simp at h)
  have hC : 0 < C := Nat.pos_of_ne_zero (by rintro rfl; simp at h)
  refine ⟨?_, Nat.mod_lt _ hC, Nat.mod_lt _ hF, ?_⟩
  · apply Nat.div_lt_of_lt_mul
    apply Nat.div_lt_of_lt_mul
    calc i < R * C * F := h
      _ = F * (C * R) := by ring
  · rw [Nat.div_add_mod', Nat.div_add_mod']

theorem maxPool_yields {l : PoolLayer ℝ} {n m : Nat} {g : Geom} (hg : g.Fits) (hp : g.Pool)
    (h1 : l.input = g.src) (h2 : l.kernel = ⟨g.kh, g.kw⟩) (h3 : l.stride = ⟨g.sh, g.sw⟩)
    (h6 : l.out.length = m) (h7 : m = g.rows * g.cols * g.src.c) (h8 : n = g.src.h * g.src.w * g.src.c)
    {x : List ℝ} (hx : x.length = n) :
    Yields (.maxPool l) x (tab m (poolOut g (vec x))) := by
  intro a' ha'
  cases a' <;> simp [core] at ha'
  case maxPool l' =>
  obtain ⟨l1, l2, l3, l5, l11, l12, l13⟩ := l'
  simp at ha'
  obtain ⟨rfl, rfl, rfl, rfl, e⟩ := ha'
  obtain ⟨d, e1, e2, e3, _⟩ := maxPool_spec hg hp (dst := l12) (src := x) (by omega) (by omega)
  have hd : d = tab m (poolOut g (vec x)) := by
    refine ext_rows (rows := g.rows) (cols := g.cols) (n := g.src.c) (by omega)
      (by rw [tab_length, h7]) e3 ?_
    intro r c f hr hc hf
    rw [tab_getElem? _ (by rw [h7]; exact out_lt hr hc hf)]
    obtain ⟨s1, s2, s3⟩ := out_split (r := r) hc hf
    unfold poolOut
    rw [s1, s2, s3]
  refine ⟨.maxPool ⟨l.input, l.output, l.kernel, l.stride, l11, d, l13⟩, ?_, by rw [hd]; rfl⟩
  show keep _ (Slide.maxForward _ _) _ = _
  unfold Slide.maxForward
  dsimp only
  rw [h1, h2, h3]
  have e1' : maxPool l12 x g.src ⟨g.kh, g.kw⟩ ⟨g.sh, g.sw⟩ = .ok d := e1
  rw [e1']
  rfl

theorem poolGeom_eq {l : PoolLayer ℝ} {g : Geom} (hp : g.Pool) (h1 : l.input = g.src)
    (h2 : l.kernel = ⟨g.kh, g.kw⟩) (h3 : l.stride = ⟨g.sh, g.sw⟩) : poolGeom l = g := by
  obtain ⟨src, kh, kw, sh, sw, ph, pw⟩ := g
  obtain ⟨rfl, rfl⟩ := hp
  unfold poolGeom
  rw [h1, h2, h3]

/-- The cell of the window of output `i` with the largest value. -/
theorem clear_cell {g : Geom} {x : List ℝ} (h : ClearMaxima g x) :
    ∃ cell : Nat → Nat → Nat → Nat × Nat, ∀ r c ch, r < g.rows → c < g.cols → ch < g.src.c →
      (cell r c ch).1 < g.kh ∧ (cell r c ch).2 < g.kw ∧
      (0 < (cell r c ch).1 + (cell r c ch).2 ∨
        windowCell g r c (cell r c ch).1 (cell r c ch).2 ch = 0) ∧
      ∀ a' b', a' < g.kh → b' < g.kw → ¬ (a' = (cell r c ch).1 ∧ b' = (cell r c ch).2) →
        vec x (windowCell g r c a' b' ch)
          < vec x (windowCell g r c (cell r c ch).1 (cell r c ch).2 ch) := by
  have : ∀ r c ch, ∃ p : Nat × Nat, r < g.rows → c < g.cols → ch < g.src.c →
      p.1 < g.kh ∧ p.2 < g.kw ∧ (0 < p.1 + p.2 ∨ windowCell g r c p.1 p.2 ch = 0) ∧
      ∀ a' b', a' < g.kh → b' < g.kw → ¬ (a' = p.1 ∧ b' = p.2) →
        vec x (windowCell g r c a' b' ch) < vec x (windowCell g r c p.1 p.2 ch) := by
    intro r c ch
    by_cases hh : r < g.rows ∧ c < g.cols ∧ ch < g.src.c
    · obtain ⟨a, b, hab⟩ := h r c ch hh.1 hh.2.1 hh.2.2
      exact ⟨(a, b), fun _ _ _ => hab⟩
    · exact ⟨(0, 0), fun h1 h2 h3 => absurd ⟨h1, h2, h3⟩ hh⟩
  choose cell hcell using this
  exact ⟨cell, hcell⟩

/-- While the cell `(a, b)` holds the largest value of the window, it is what pooling returns. -/
theorem runMax_cell {g : Geom} {x : Nat → ℝ} {r c ch a b : Nat} (ha : a < g.kh) (hb : b < g.kw)
    (h : ∀ a' b', a' < g.kh → b' < g.kw → ¬ (a' = a ∧ b' = b) →
      x (windowCell g r c a' b' ch) < x (windowCell g r c a b ch)) :
    runMax (fun ki => x (cellNo g r c ch ki)) (g.kh * g.kw) = x (windowCell g r c a b ch) := by
  have hk : a * g.kw + b < g.kh * g.kw := rowmajor_lt ha hb
  obtain ⟨⟨i, h1, h2⟩, h3⟩ := runMax_spec (fun ki => x (cellNo g r c ch ki)) (n := g.kh * g.kw) (by omega)
  have e1 : (a * g.kw + b) / g.kw = a := by
    rw [Nat.mul_comm, Nat.mul_add_div (by omega), Nat.div_eq_of_lt hb, Nat.add_zero]
  have e2 : (a * g.kw + b) % g.kw = b := by rw [Nat.mul_comm, Nat.mul_add_mod, Nat.mod_eq_of_lt hb]
  have h4 := h3 _ hk
  rw [h2] at h4 ⊢
  simp only [cellNo, e1, e2] at h4 ⊢
  obtain ⟨b1, b2⟩ := ki_bounds h1
  by_cases hq : i / g.kw = a ∧ i % g.kw = b
  · rw [hq.1, hq.2]
  · exact absurd (h _ _ b1 b2 hq) (not_lt.mpr h4)

theorem windowCell_lt {g : Geom} (hg : g.Fits) (hp : g.Pool) {r c a b ch : Nat} (hr : r < g.rows)
    (hc : c < g.cols) (ha : a < g.kh) (hb : b < g.kw) (hch : ch < g.src.c) :
    windowCell g r c a b ch < g.src.h * g.src.w * g.src.c := by
  have := cellNo_lt hg hp hr hc (rowmajor_lt ha hb) hch
  unfold cellNo at this
  rwa [Nat.mul_comm a, Nat.mul_add_div (by omega), Nat.div_eq_of_lt hb, Nat.add_zero, Nat.mul_add_mod,
    Nat.mod_eq_of_lt hb] at this

theorem maxPool_adjoint {l : PoolLayer ℝ} {n m : Nat} (h : Maps n m (.maxPool l)) {x : List ℝ}
    (hx : x.length = n) : ∃ y, Adjoint n m (.maxPool l) x y := by
  obtain ⟨g, hg, hp, h1, h2, h3, h6, h7, h8⟩ := h
  refine ⟨_, maxPool_yields hg hp h1 h2 h3 h6 h7 h8 hx, by simp, ?_⟩
  intro gr hgr
  have key : ∀ l' : PoolLayer ℝ, l'.input = g.src → l'.kernel = ⟨g.kh, g.kw⟩ →
      l'.stride = ⟨g.sh, g.sw⟩ → l'.inputGrads.length = n → l'.out.length = m → l'.lastInput = x →
      ∃ (ig : List ℝ) (tgt : Nat → Nat → Nat → Nat), Slide.maxBackward l' gr = .ok { l' with inputGrads := ig } ∧ ig.length = n ∧
      (∀ r c ch, Props.CornerIsMax g (vec x) r c ch → tgt r c ch = 0) ∧
      (∀ r c ch, ¬ Props.CornerIsMax g (vec x) r c ch → Props.WindowMaxAt g (vec x) r c ch (tgt r c ch)) ∧
      ∀ q, q < n → vec ig q = ∑ r ∈ range g.rows, ∑ c ∈ range g.cols, ∑ ch ∈ range g.src.c,
          if q = tgt r c ch then vec gr ((r * g.cols + c) * g.src.c + ch) else 0 := by
    intro l' i1 i2 i3 i4 i5 i6
    obtain ⟨ig, tgt, a1, a2, a3, a4, a5⟩ := Props.C13_max_pool_backward_actual l' g hg hp
      ⟨i1, i2, i3, by omega, by omega⟩ gr (by omega) (by rw [i6]; omega)
    rw [i6] at a3 a4
    exact ⟨ig, tgt, a1, by omega, a3, a4, fun q hq => a5 q (by omega)⟩
  obtain ⟨ig, tgt, a1, a2, a3, a4, a5⟩ := key { l with
    inputGrads := List.replicate n 0, lastInput := x } h1 h2 h3 (by simp) h6 rfl
  refine ⟨ig, fun _ _ => 0, a2, ?_, ?_, ?_⟩
  · intro l' hc hgrad hout
    cases l' <;> simp [core] at hc
    case maxPool l' =>
    obtain ⟨l1, l2, l3, l5, l11, l12, l13⟩ := l'
    simp at hc
    obtain ⟨rfl, rfl, rfl, rfl, e⟩ := hc
    have hl11 : l11.length = n := hgrad
    have hrep : List.replicate n (0 : ℝ) = List.replicate l11.length 0 := by rw [hl11]
    have hb : Slide.maxBackward ⟨l.input, l.output, l.kernel, l.stride, l11, l12, x⟩ gr
        = .ok ⟨l.input, l.output, l.kernel, l.stride, ig, l12, x⟩ := by
      unfold Slide.maxBackward at a1 ⊢
      dsimp only at a1 ⊢
      rw [List.length_replicate] at a1
      rw [hl11]
      obtain ⟨o, o1, o2⟩ := Exec.bind_eq_ok a1
      rw [o1, Exec.bind_ok]
      cases o2
      rfl
    refine ⟨.maxPool ⟨l.input, l.output, l.kernel, l.stride, ig, l12, x⟩, ?_, rfl, a2, hout, ?_⟩
    · show keep _ (Slide.maxBackward _ gr) _ = _
      dsimp only [AnyLayer.setLastInput]
      rw [hb]
      rfl
    · intro b k _ hb' _
      exact absurd hb' (by simp [AnyLayer.params])
  · intro hs X X' t0 hX0 hXl hX
    have hs : ClearMaxima g x := by
      have : ClearMaxima (poolGeom l) x := hs
      rwa [poolGeom_eq hp h1 h2 h3] at this
    obtain ⟨cell, hcell⟩ := clear_cell hs
    let W : Nat → Nat → Nat → Nat := fun r c ch =>
      windowCell g r c (cell r c ch).1 (cell r c ch).2 ch
    have htgt : ∀ r c ch, r < g.rows → c < g.cols → ch < g.src.c → tgt r c ch = W r c ch := by
      intro r c ch hr hc hch
      obtain ⟨c1, c2, c3, c4⟩ := hcell r c ch hr hc hch
      by_cases hco : Props.CornerIsMax g (vec x) r c ch
      · rw [a3 _ _ _ hco]
        rcases c3 with c3 | c3
        · have := c4 0 0 hg.kh_pos hg.kw_pos (by omega)
          exact absurd this (not_lt.mpr (hco _ _ c1 c2))
        · exact c3.symm
      · obtain ⟨⟨a, b, w1, w2, w3⟩, w4⟩ := a4 r c ch hco
        by_cases hq : a = (cell r c ch).1 ∧ b = (cell r c ch).2
        · rw [w3, hq.1, hq.2]
        · have := c4 a b w1 w2 hq
          rw [← w3] at this
          exact absurd (w4 _ _ c1 c2) (not_le.mpr this)
    let V : Nat → Nat := fun i => W (i / g.src.c / g.cols) (i / g.src.c % g.cols) (i % g.src.c)
    refine ⟨_, fun i => X' (V i), fun t => ⟨maxPool_yields hg hp h1 h2 h3 h6 h7 h8 (hXl t), by simp⟩,
      by rw [hX0], ?_, ?_⟩
    · intro i hi
      rw [vec_tab_fun (fun t => poolOut g (vec (X t))) hi]
      obtain ⟨o1, o2, o3, _⟩ := out_bounds (by rw [← h7]; exact hi)
      obtain ⟨c1, c2, c3, c4⟩ := hcell _ _ _ o1 o2 o3
      have hlt : ∀ a b, a < g.kh → b < g.kw →
          windowCell g (i / g.src.c / g.cols) (i / g.src.c % g.cols) a b (i % g.src.c) < n := by
        intro a b ha hb
        rw [h8]
        exact windowCell_lt hg hp o1 o2 ha hb o3
      refine (hX (V i) (hlt _ _ c1 c2)).congr_of_eventuallyEq ?_
      have hev : ∀ᶠ t in nhds t0, ∀ a ∈ range g.kh, ∀ b ∈ range g.kw,
          ¬ (a = (cell (i / g.src.c / g.cols) (i / g.src.c % g.cols) (i % g.src.c)).1 ∧
            b = (cell (i / g.src.c / g.cols) (i / g.src.c % g.cols) (i % g.src.c)).2) →
          vec (X t) (windowCell g (i / g.src.c / g.cols) (i / g.src.c % g.cols) a b (i % g.src.c))
            < vec (X t) (V i) := by
        rw [Filter.eventually_all_finset]
        intro a ha
        rw [Filter.eventually_all_finset]
        intro b hb
        by_cases hq : a = (cell (i / g.src.c / g.cols) (i / g.src.c % g.cols) (i % g.src.c)).1 ∧
            b = (cell (i / g.src.c / g.cols) (i / g.src.c % g.cols) (i % g.src.c)).2
        · exact Filter.Eventually.of_forall fun t h => absurd hq h
        · have ha' : a < g.kh := by simpa using ha
          have hb' : b < g.kw := by simpa using hb
          have := c4 a b ha' hb' hq
          rw [← hX0] at this
          have ev := (hX _ (hlt a b ha' hb')).continuousAt.eventually_lt
            (hX (V i) (hlt _ _ c1 c2)).continuousAt this
          filter_upwards [ev] with t ht _
          exact ht
      filter_upwards [hev] with t ht
      exact runMax_cell c1 c2 fun a' b' ha hb hq => ht a' (by simpa using ha) b' (by simpa using hb) hq
    · rw [h7, sum_split3]
      have e1 : ∑ q ∈ range n, vec ig q * X' q = ∑ q ∈ range n, ∑ r ∈ range g.rows,
          ∑ c ∈ range g.cols, ∑ ch ∈ range g.src.c,
            if q = tgt r c ch then vec gr ((r * g.cols + c) * g.src.c + ch) * X' q else 0 := by
        refine Finset.sum_congr rfl fun q hq => ?_
        rw [a5 q (by simpa using hq)]
        simp only [Finset.sum_mul, ite_mul, zero_mul]
      rw [e1]
      symm
      rw [Finset.sum_comm]
      refine Finset.sum_congr rfl fun r hr => ?_
      rw [Finset.sum_comm]
      refine Finset.sum_congr rfl fun c hc => ?_
      rw [Finset.sum_comm]
      refine Finset.sum_congr rfl fun ch hch => ?_
      have hr' : r < g.rows := by simpa using hr
      have hc' : c < g.cols := by simpa using hc
      have hch' : ch < g.src.c := by simpa using hch
      obtain ⟨s1, s2, s3⟩ := out_split (r := r) hc' hch'
      obtain ⟨c1, c2, _, _⟩ := hcell r c ch hr' hc' hch'
      rw [htgt r c ch hr' hc' hch']
      have hW : W r c ch < n := by rw [h8]; exact windowCell_lt hg hp hr' hc' c1 c2 hch'
      rw [Finset.sum_eq_single_of_mem (W r c ch) (by simpa using hW)]
      · rw [if_pos rfl]
        show _ = _ * X' (W _ _ _)
        rw [s1, s2, s3]
      · intro q _ hq
        rw [if_neg hq]
  · intro b k _ hb' _
    exact absurd hb' (by simp [AnyLayer.params])

theorem avgPool_adjoint {l : PoolLayer ℝ} {n m : Nat} (h : Maps n m (.avgPool l)) {x : List ℝ}
    (hx : x.length = n) : ∃ y, Adjoint n m (.avgPool l) x y := by
  obtain ⟨y, y1, y2⟩ := yields_of_maps h hx
  obtain ⟨g, hg, hp, h1, h2, h3, h6, h7, h8⟩ := h
  refine ⟨y, y2, y1, ?_⟩
  intro gr hgr
  obtain ⟨ig, a1, a2, _⟩ := Props.C14_avg_pool_backward_partial { l with
    inputGrads := List.replicate n 0 } g hg hp ⟨h1, h2, h3, by simp [h8], by rw [← h7]; exact h6⟩ gr
    (by omega)
  have a2 : ig.length = n := by simpa using a2
  refine ⟨ig, fun _ _ => 0, a2, ?_, fun h => h.elim, ?_⟩
  · intro l' hc hgrad hout
    cases l' <;> simp [core] at hc
    case avgPool l' =>
    obtain ⟨l1, l2, l3, l5, l11, l12, l13⟩ := l'
    simp at hc
    obtain ⟨rfl, rfl, rfl, rfl, e⟩ := hc
    have hl11 : l11.length = n := hgrad
    have hb : Slide.avgBackward ⟨l.input, l.output, l.kernel, l.stride, l11, l12, x⟩ gr
        = .ok ⟨l.input, l.output, l.kernel, l.stride, ig, l12, x⟩ := by
      unfold Slide.avgBackward at a1 ⊢
      dsimp only at a1 ⊢
      rw [List.length_replicate] at a1
      rw [hl11]
      obtain ⟨o, o1, o2⟩ := Exec.bind_eq_ok a1
      rw [o1, Exec.bind_ok]
      cases o2
      rfl
    refine ⟨.avgPool ⟨l.input, l.output, l.kernel, l.stride, ig, l12, x⟩, ?_, rfl, a2, hout, ?_⟩
    · show keep _ (Slide.avgBackward _ gr) _ = _
      dsimp only [AnyLayer.setLastInput]
      rw [hb]
      rfl
    · intro b k _ hb' _
      exact absurd hb' (by simp [AnyLayer.params])
  · intro b k _ hb' _
    exact absurd hb' (by simp [AnyLayer.params])

theorem adjoint_of {l : AnyLayer} {n m : Nat} (h : Maps n m l) {x : List ℝ} (hx : x.length = n) :
    ∃ y, Adjoint n m l x y := by
  cases l with
  | dense l => exact dense_adjoint h hx
  | conv l => exact conv_adjoint h hx
  | act f l =>
    cases f with
    | relu =>
      obtain ⟨rfl, h2⟩ := h
      refine pointwise_adjoint (φ := Act.relu) rfl rfl rfl h2 hx fun hs v hv => ?_
      rw [Act.relu1_of_output]
      exact Act.relu_deriv (hs v hv)
    | elu a =>
      obtain ⟨rfl, h2⟩ := h
      refine pointwise_adjoint (φ := Act.elu a) rfl rfl rfl h2 hx fun hs v hv => ?_
      obtain ⟨h3, h4⟩ := hs
      rw [Act.elu1_of_output h3]
      exact Act.elu_deriv (h4.elim Or.inr fun h => Or.inl (h v hv))
    | softmax =>
      obtain ⟨rfl, h2, h3⟩ := h
      exact softmax_adjoint h3 h2 hx
    | tanh =>
      obtain ⟨rfl, h2⟩ := h
      exact pointwise_adjoint (φ := Act.tanh) (φo := Act.tanh1Opt) rfl rfl rfl h2 hx
        (fun _ v _ => Act.tanh_deriv v)
    | sigmoid =>
      obtain ⟨rfl, h2⟩ := h
      exact pointwise_adjoint (φ := Act.sigmoid) (φo := Act.sigmoid1Opt) rfl rfl rfl h2 hx
        (fun _ v _ => Act.sigmoid_deriv v)
    | linear =>
      have h : m = n := h
      subst h
      subst hx
      exact linear_adjoint
  | maxPool l => exact maxPool_adjoint h hx
  | avgPool l => exact avgPool_adjoint h hx
  | dropout mx raw l => exact h.elim
  | rnn f f1 l => exact h.elim
  | loss f l => exact h.elim

end

end Verif.Net

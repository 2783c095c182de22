import Verif.Spec.Field
import Verif.Proofs.Range

/-! Proofs for C110. -/

namespace Verif.Net

open Verif.Spec Verif.Slide

noncomputable section

theorem covered_lt {n k s a i : Nat} (ha : a < n) (hi : i < k) : a * s + i < covered n k s := by
  unfold covered
  have : a * s ≤ (n - 1) * s := Nat.mul_le_mul_right s (by omega)
  omega

theorem placed {row r a H k s p : Nat} (hs : 0 < s) (hk : k ≤ H + 2 * p) (h0 : 0 < k) (e : row + p = r * s)
    (h : row + (a * s + (k - 1)) < H) : r + a < placements H k s p := by
  rw [placements_eq hs hk, Nat.lt_succ_iff, Nat.le_div_iff_mul_le hs, Nat.add_mul]
  omega

theorem runMax_congr {u v : Nat → ℝ} : ∀ {n : Nat}, 0 < n → (∀ i, i < n → u i = v i) → runMax u n = runMax v n
  | 1, _, h => h 0 (by omega)
  | n + 2, _, h => by
    have ih := runMax_congr (u := u) (v := v) (n := n + 1) (by omega) fun i hi => h i (by omega)
    unfold runMax
    rw [ih, h (n + 1) (by omega)]

theorem conv_patch {g : Geom} (hg : g.Fits) {nf : Nat} {w : Nat → ℝ} {x x' : List ℝ} {q q' : Window} {row col row' col' : Nat}
    (e1 : row + g.ph = q.row * g.sh) (e2 : col + g.pw = q.col * g.sw)
    (e1' : row' + g.ph = q'.row * g.sh) (e2' : col' + g.pw = q'.col * g.sw)
    (h : SamePatch g.src x ⟨row, col, covered q.height g.kh g.sh, covered q.width g.kw g.sw⟩ x'
      ⟨row', col', covered q'.height g.kh g.sh, covered q'.width g.kw g.sw⟩) (hc : 0 < g.src.c) :
    SamePatch ⟨g.rows, g.cols, nf⟩ (tab (g.rows * g.cols * nf) (convOut g nf (vec x) w)) q
      (tab (g.rows * g.cols * nf) (convOut g nf (vec x') w)) q' := by
  intro a b f ha hb hf
  have b1 := (h (a * g.sh + (g.kh - 1)) (b * g.sw + (g.kw - 1)) 0 (covered_lt ha (by have := hg.kh_pos; omega))
    (covered_lt hb (by have := hg.kw_pos; omega)) hc).1
  have r1 : q.row + a < g.rows := placed hg.sh_pos hg.kh_le hg.kh_pos e1 b1.1
  have r2 : q.col + b < g.cols := placed hg.sw_pos hg.kw_le hg.kw_pos e2 b1.2.1
  have r3 : q'.row + a < g.rows := placed hg.sh_pos hg.kh_le hg.kh_pos e1' b1.2.2.1
  have r4 : q'.col + b < g.cols := placed hg.sw_pos hg.kw_le hg.kw_pos e2' b1.2.2.2
  have hf : f < nf := hf
  refine ⟨⟨r1, r2, r3, r4⟩, ?_⟩
  show vec _ (((q.row + a) * g.cols + (q.col + b)) * nf + f) = vec _ (((q'.row + a) * g.cols + (q'.col + b)) * nf + f)
  rw [vec_tab _ (out_lt r1 r2 hf), vec_tab _ (out_lt r3 r4 hf), convOut_at _ _ r2 hf, convOut_at _ _ r4 hf]
  unfold corr
  refine Finset.sum_congr rfl fun i hi => Finset.sum_congr rfl fun j hj => Finset.sum_congr rfl fun ch hch => ?_
  rw [Finset.mem_range] at hi hj hch
  obtain ⟨⟨c1, c2, c3, c4⟩, c5⟩ := h (a * g.sh + i) (b * g.sw + j) ch (covered_lt ha hi) (covered_lt hb hj) hch
  dsimp only at c1 c2 c3 c4 c5
  have d1 : (((q.row + a) * g.sh + i : Nat) : Int) - (g.ph : Int) = ((row + (a * g.sh + i) : Nat) : Int) := by
    rw [Nat.add_mul, ← e1]; push_cast; ring
  have d2 : (((q.col + b) * g.sw + j : Nat) : Int) - (g.pw : Int) = ((col + (b * g.sw + j) : Nat) : Int) := by
    rw [Nat.add_mul, ← e2]; push_cast; ring
  have d3 : (((q'.row + a) * g.sh + i : Nat) : Int) - (g.ph : Int) = ((row' + (a * g.sh + i) : Nat) : Int) := by
    rw [Nat.add_mul, ← e1']; push_cast; ring
  have d4 : (((q'.col + b) * g.sw + j : Nat) : Int) - (g.pw : Int) = ((col' + (b * g.sw + j) : Nat) : Int) := by
    rw [Nat.add_mul, ← e2']; push_cast; ring
  rw [d1, d2, d3, d4]
  unfold padded
  rw [if_pos ⟨by omega, by exact_mod_cast c1, by omega, by exact_mod_cast c2⟩,
    if_pos ⟨by omega, by exact_mod_cast c3, by omega, by exact_mod_cast c4⟩]
  simp only [Int.toNat_natCast]
  rw [c5]

theorem window_same {g : Geom} {x x' : List ℝ} {q q' : Window}
    (h : SamePatch g.src x ⟨q.row * g.sh, q.col * g.sw, covered q.height g.kh g.sh, covered q.width g.kw g.sw⟩ x'
      ⟨q'.row * g.sh, q'.col * g.sw, covered q'.height g.kh g.sh, covered q'.width g.kw g.sw⟩)
    {a b i j ch : Nat} (ha : a < q.height) (hb : b < q.width) (hi : i < g.kh) (hj : j < g.kw) (hch : ch < g.src.c) :
    vec x (windowCell g (q.row + a) (q.col + b) i j ch) = vec x' (windowCell g (q'.row + a) (q'.col + b) i j ch) := by
  have := (h (a * g.sh + i) (b * g.sw + j) ch (covered_lt ha hi) (covered_lt hb hj) hch).2
  dsimp only at this
  unfold windowCell
  rw [Nat.add_mul, Nat.add_mul, Nat.add_mul, Nat.add_mul, Nat.add_assoc, Nat.add_assoc, Nat.add_assoc, Nat.add_assoc]
  exact this

/-- Pooling with a function `F` of the values of a window. -/
theorem pool_patch {g : Geom} (hg : g.Fits) (hp : g.Pool) {F : (Nat → ℝ) → Nat → ℝ} {x x' : List ℝ} {q q' : Window}
    (h : SamePatch g.src x ⟨q.row * g.sh, q.col * g.sw, covered q.height g.kh g.sh, covered q.width g.kw g.sw⟩ x'
      ⟨q'.row * g.sh, q'.col * g.sw, covered q'.height g.kh g.sh, covered q'.width g.kw g.sw⟩)
    (hF : ∀ r c r' c' ch, c < g.cols → c' < g.cols → ch < g.src.c →
      (∀ i j, i < g.kh → j < g.kw → vec x (windowCell g r c i j ch) = vec x' (windowCell g r' c' i j ch)) →
      F (vec x) ((r * g.cols + c) * g.src.c + ch) = F (vec x') ((r' * g.cols + c') * g.src.c + ch)) :
    SamePatch ⟨g.rows, g.cols, g.src.c⟩ (tab (g.rows * g.cols * g.src.c) (F (vec x))) q
      (tab (g.rows * g.cols * g.src.c) (F (vec x'))) q' := by
  intro a b f ha hb hf
  have b1 := (h (a * g.sh + (g.kh - 1)) (b * g.sw + (g.kw - 1)) f (covered_lt ha (by have := hg.kh_pos; omega))
    (covered_lt hb (by have := hg.kw_pos; omega)) hf).1
  have r1 : q.row + a < g.rows := placed hg.sh_pos hg.kh_le hg.kh_pos (by rw [hp.1]; rfl) b1.1
  have r2 : q.col + b < g.cols := placed hg.sw_pos hg.kw_le hg.kw_pos (by rw [hp.2]; rfl) b1.2.1
  have r3 : q'.row + a < g.rows := placed hg.sh_pos hg.kh_le hg.kh_pos (by rw [hp.1]; rfl) b1.2.2.1
  have r4 : q'.col + b < g.cols := placed hg.sw_pos hg.kw_le hg.kw_pos (by rw [hp.2]; rfl) b1.2.2.2
  refine ⟨⟨r1, r2, r3, r4⟩, ?_⟩
  show vec _ (((q.row + a) * g.cols + (q.col + b)) * g.src.c + f)
    = vec _ (((q'.row + a) * g.cols + (q'.col + b)) * g.src.c + f)
  rw [vec_tab _ (out_lt r1 r2 hf), vec_tab _ (out_lt r3 r4 hf)]
  exact hF _ _ _ _ _ r2 r4 hf fun i j hi hj => window_same h ha hb hi hj hf

theorem max_window {g : Geom} (hg : g.Fits) {x x' : List ℝ} (r c r' c' ch : Nat) (hc : c < g.cols) (hc' : c' < g.cols)
    (hch : ch < g.src.c)
    (h : ∀ i j, i < g.kh → j < g.kw → vec x (windowCell g r c i j ch) = vec x' (windowCell g r' c' i j ch)) :
    poolOut g (vec x) ((r * g.cols + c) * g.src.c + ch) = poolOut g (vec x') ((r' * g.cols + c') * g.src.c + ch) := by
  unfold poolOut
  obtain ⟨s1, s2, s3⟩ := out_split (r := r) hc hch
  obtain ⟨t1, t2, t3⟩ := out_split (r := r') hc' hch
  rw [s1, s2, s3, t1, t2, t3]
  refine runMax_congr (Nat.mul_pos hg.kh_pos hg.kw_pos) fun ki hk => ?_
  exact h _ _ (Nat.div_lt_of_lt_mul (by rw [Nat.mul_comm]; exact hk)) (Nat.mod_lt _ hg.kw_pos)

/-- The average of a window, by the index of the output. -/
def avgOut (g : Geom) (x : Nat → ℝ) (i : Nat) : ℝ :=
  (∑ a ∈ Finset.range g.kh, ∑ b ∈ Finset.range g.kw,
    x (windowCell g (i / g.src.c / g.cols) (i / g.src.c % g.cols) a b (i % g.src.c))) / ((g.kh * g.kw : Nat) : ℝ)

theorem avg_window {g : Geom} {x x' : List ℝ} (r c r' c' ch : Nat) (hc : c < g.cols) (hc' : c' < g.cols)
    (hch : ch < g.src.c)
    (h : ∀ i j, i < g.kh → j < g.kw → vec x (windowCell g r c i j ch) = vec x' (windowCell g r' c' i j ch)) :
    avgOut g (vec x) ((r * g.cols + c) * g.src.c + ch) = avgOut g (vec x') ((r' * g.cols + c') * g.src.c + ch) := by
  unfold avgOut
  obtain ⟨s1, s2, s3⟩ := out_split (r := r) hc hch
  obtain ⟨t1, t2, t3⟩ := out_split (r := r') hc' hch
  rw [s1, s2, s3, t1, t2, t3]
  congr 1
  refine Finset.sum_congr rfl fun i hi => Finset.sum_congr rfl fun j hj => ?_
  exact h i j (Finset.mem_range.mp hi) (Finset.mem_range.mp hj)

theorem act_patch {s : Shape3} {φ : ℝ → ℝ} {x x' : List ℝ} {q q' : Window} (h : SamePatch s x q x' q') :
    SamePatch s (tab s.size fun i => φ (vec x i)) q (tab s.size fun i => φ (vec x' i)) q' := by
  intro a b ch ha hb hch
  obtain ⟨⟨c1, c2, c3, c4⟩, c5⟩ := h a b ch ha hb hch
  refine ⟨⟨c1, c2, c3, c4⟩, ?_⟩
  rw [vec_tab _ (show _ < s.size from cellIdx_lt c1 c2 hch), vec_tab _ (show _ < s.size from cellIdx_lt c3 c4 hch), c5]

/-- One layer on two images. -/
theorem layer_patch {l : AnyLayer} {s t : Shape3} (h : OnImages s t l) {ls : List AnyLayer} {p p' q q' : Window}
    (hq : Sees (l :: ls) q p) (hq' : Sees (l :: ls) q' p') {x x' : List ℝ} (hx : x.length = s.size)
    (hx' : x'.length = s.size) (hs : SamePatch s x q x' q') :
    ∃ y y' u u', Yields l x y ∧ Yields l x' y' ∧ y.length = t.size ∧ y'.length = t.size ∧
      Sees ls u p ∧ Sees ls u' p' ∧ SamePatch t y u y' u' := by
  obtain ⟨h0, hm, h⟩ := h
  cases hq with
  | @conv l _ row col u _ e1 e2 hu =>
    cases hq' with
    | @conv _ _ row' col' u' _ e1' e2' hu' =>
    obtain ⟨g, hg, g1, g2, g3, g4, g5, g6, g7, g8⟩ := hm
    obtain ⟨h1, rfl⟩ := h
    have i1 := g1.symm.trans h1
    subst i1
    have et : (⟨placements g.src.h l.kernel.h l.stride.h l.padding.h,
        placements g.src.w l.kernel.w l.stride.w l.padding.w, l.nFilters⟩ : Shape3) = ⟨g.rows, g.cols, l.nFilters⟩ := by
      rw [g2, g3, g4]; rfl
    rw [et] at g6 g7 ⊢
    rw [g2, g3] at hs
    rw [g3, g4] at e1 e2 e1' e2'
    refine ⟨_, _, u, u', conv_yields hg g1 g2 g3 g4 g5 g6 g7 g8 hx, conv_yields hg g1 g2 g3 g4 g5 g6 g7 g8 hx',
      by simp, by simp, hu, hu', ?_⟩
    exact conv_patch hg e1 e2 e1' e2' hs h0
  | @maxPool l _ u _ hu =>
    cases hq' with
    | @maxPool _ _ u' _ hu' =>
    obtain ⟨g, hg, hp, g1, g2, g3, g6, g7, g8⟩ := hm
    obtain ⟨h1, rfl⟩ := h
    have i1 := g1.symm.trans h1
    subst i1
    have et : (⟨placements g.src.h l.kernel.h l.stride.h 0,
        placements g.src.w l.kernel.w l.stride.w 0, g.src.c⟩ : Shape3) = ⟨g.rows, g.cols, g.src.c⟩ := by
      rw [g2, g3]; unfold Geom.rows Geom.cols; rw [hp.1, hp.2]
    rw [et] at g6 g7 ⊢
    rw [g2, g3] at hs
    refine ⟨_, _, u, u', maxPool_yields hg hp g1 g2 g3 g6 g7 g8 hx, maxPool_yields hg hp g1 g2 g3 g6 g7 g8 hx',
      by simp, by simp, hu, hu', ?_⟩
    exact pool_patch hg hp hs fun r c r' c' ch => max_window hg r c r' c' ch
  | @avgPool l _ u _ hu =>
    cases hq' with
    | @avgPool _ _ u' _ hu' =>
    obtain ⟨g, hg, hp, g1, g2, g3, g6, g7, g8⟩ := hm
    obtain ⟨h1, rfl⟩ := h
    have i1 := g1.symm.trans h1
    subst i1
    have et : (⟨placements g.src.h l.kernel.h l.stride.h 0,
        placements g.src.w l.kernel.w l.stride.w 0, g.src.c⟩ : Shape3) = ⟨g.rows, g.cols, g.src.c⟩ := by
      rw [g2, g3]; unfold Geom.rows Geom.cols; rw [hp.1, hp.2]
    rw [et] at g6 g7 ⊢
    rw [g2, g3] at hs
    refine ⟨_, _, u, u', avgPool_yields hg hp g1 g2 g3 g6 g7 g8 hx, avgPool_yields hg hp g1 g2 g3 g6 g7 g8 hx',
      by simp, by simp, hu, hu', ?_⟩
    exact pool_patch (F := avgOut g) hg hp hs fun r c r' c' ch => avg_window r c r' c' ch
  | @act f l _ _ _ hf hu =>
    cases hq' with
    | act _ hu' =>
    cases h
    have done : ∀ φ : ℝ → ℝ, f.isLinear = false → f.forward = Act.Layer.forwardWith φ → l.output.length = s.size →
        ∃ y y' u u', Yields (.act f l) x y ∧ Yields (.act f l) x' y' ∧ y.length = s.size ∧ y'.length = s.size ∧
          Sees ls u p ∧ Sees ls u' p' ∧ SamePatch s y u y' u' := fun φ h1 h2 h3 =>
      ⟨_, _, _, _, pointwise_yields h1 h2 h3 hx, pointwise_yields h1 h2 h3 hx', by simp, by simp, hu, hu', act_patch hs⟩
    cases f with
    | relu => exact done _ rfl rfl hm.2
    | elu a => exact done _ rfl rfl hm.2
    | tanh => exact done _ rfl rfl hm.2
    | sigmoid => exact done _ rfl rfl hm.2
    | softmax => exact absurd rfl hf
    | linear =>
      refine ⟨x, x', _, _, ?_, ?_, hx, hx', hu, hu', hs⟩ <;>
      · intro a' ha'
        obtain ⟨k, rfl, _⟩ := act_core ha'
        exact ⟨.act .linear { k with output := _ }, rfl, rfl⟩

/-- A list of layers on two images. -/
theorem layers_patch {ls : List AnyLayer} {s t : Shape3} (h : AllOnImages s t ls) : ∀ {p p' q q' : Window},
    Sees ls q p → Sees ls q' p' → ∀ {x x' : List ℝ}, x.length = s.size → x'.length = s.size → SamePatch s x q x' q' →
    ∃ y y', YieldsAll ls x y ∧ YieldsAll ls x' y' ∧ SamePatch t y p y' p' := by
  induction h with
  | nil s =>
    intro p p' q q' hq hq' x x' hx hx' hs
    cases hq
    cases hq'
    exact ⟨x, x', .nil x, .nil x', hs⟩
  | cons h1 _ ih =>
    intro p p' q q' hq hq' x x' hx hx' hs
    obtain ⟨z, z', u, u', a1, a2, a3, a4, a5, a6, a7⟩ := layer_patch h1 hq hq' hx hx' hs
    obtain ⟨y, y', b1, b2, b3⟩ := ih a5 a6 a3 a4 a7
    exact ⟨y, y', .cons a1 b1, .cons a2 b2, b3⟩

theorem sees_moved {ls : List AnyLayer} {q p : Window} (h : Sees ls q p) (dr dc : Nat) :
    Sees ls (q.moved (dr * (ls.map rowStride).prod) (dc * (ls.map colStride).prod)) (p.moved dr dc) := by
  induction h with
  | nil p => simpa using Sees.nil (p.moved dr dc)
  | @conv l ls row col q p e1 e2 _ ih =>
    have := Sees.conv (l := l) (row := row + dr * ((AnyLayer.conv l :: ls).map rowStride).prod)
      (col := col + dc * ((AnyLayer.conv l :: ls).map colStride).prod) ?_ ?_ ih
    · exact this
    · simp only [Window.moved, List.map_cons, List.prod_cons, rowStride]
      rw [Nat.add_mul, ← e1]; ring
    · simp only [Window.moved, List.map_cons, List.prod_cons, colStride]
      rw [Nat.add_mul, ← e2]; ring
  | @maxPool l ls q p _ ih =>
    have := Sees.maxPool (l := l) ih
    simp only [Window.moved, List.map_cons, List.prod_cons, rowStride, colStride] at this ⊢
    rw [Nat.add_mul, Nat.add_mul, Nat.mul_assoc, Nat.mul_assoc] at this
    rwa [Nat.mul_comm l.stride.h, Nat.mul_comm l.stride.w]
  | @avgPool l ls q p _ ih =>
    have := Sees.avgPool (l := l) ih
    simp only [Window.moved, List.map_cons, List.prod_cons, rowStride, colStride] at this ⊢
    rw [Nat.add_mul, Nat.add_mul, Nat.mul_assoc, Nat.mul_assoc] at this
    rwa [Nat.mul_comm l.stride.h, Nat.mul_comm l.stride.w]
  | @act f l ls q p hf _ ih =>
    have := Sees.act (l := l) hf ih
    simpa [rowStride, colStride] using this

theorem conv_of_shape {l : ConvLayer ℝ} {b : AnyLayer} (h : shape (.conv l) = shape b) :
    ∃ k, b = .conv k ∧ k.input = l.input ∧ k.kernel = l.kernel ∧ k.stride = l.stride ∧ k.padding = l.padding ∧
      k.nFilters = l.nFilters := by
  cases b <;> simp [shape, core, AnyLayer.setParams, AnyLayer.params] at h
  case conv k => exact ⟨k, rfl, by simp_all⟩

theorem maxPool_of_shape {l : PoolLayer ℝ} {b : AnyLayer} (h : shape (.maxPool l) = shape b) :
    ∃ k, b = .maxPool k ∧ k.input = l.input ∧ k.kernel = l.kernel ∧ k.stride = l.stride := by
  cases b <;> simp [shape, core, AnyLayer.setParams, AnyLayer.params] at h
  case maxPool k => exact ⟨k, rfl, by simp_all⟩

theorem avgPool_of_shape {l : PoolLayer ℝ} {b : AnyLayer} (h : shape (.avgPool l) = shape b) :
    ∃ k, b = .avgPool k ∧ k.input = l.input ∧ k.kernel = l.kernel ∧ k.stride = l.stride := by
  cases b <;> simp [shape, core, AnyLayer.setParams, AnyLayer.params] at h
  case avgPool k => exact ⟨k, rfl, by simp_all⟩

theorem onImages_of_shape {a b : AnyLayer} {s t : Shape3} (e : shape a = shape b) (h : OnImages s t a) :
    OnImages s t b := by
  obtain ⟨h0, hm, h⟩ := h
  have hb := maps_of_shape e hm
  cases a with
  | conv l =>
    obtain ⟨k, rfl, e1, e2, e3, e4, e5⟩ := conv_of_shape e
    exact ⟨h0, hb, by dsimp only; rw [e1, e2, e3, e4, e5]; exact h⟩
  | maxPool l =>
    obtain ⟨k, rfl, e1, e2, e3⟩ := maxPool_of_shape e
    exact ⟨h0, hb, by dsimp only; rw [e1, e2, e3]; exact h⟩
  | avgPool l =>
    obtain ⟨k, rfl, e1, e2, e3⟩ := avgPool_of_shape e
    exact ⟨h0, hb, by dsimp only; rw [e1, e2, e3]; exact h⟩
  | act f l =>
    obtain ⟨k, rfl⟩ := act_of_shape e.symm
    exact ⟨h0, hb, h⟩
  | _ => exact h.elim

theorem allOnImages_of_shapes {as : List AnyLayer} {s t : Shape3} (h : AllOnImages s t as) : ∀ {bs : List AnyLayer},
    as.map shape = bs.map shape → AllOnImages s t bs := by
  induction h with
  | nil s => intro bs e; cases List.map_eq_nil_iff.mp e.symm; exact .nil s
  | cons h1 _ ih =>
    intro bs e
    obtain ⟨b, bs', rfl, e1, e2⟩ := List.map_eq_cons_iff.mp e.symm
    exact .cons (onImages_of_shape e1.symm h1) (ih e2.symm)

theorem sees_of_shapes {as : List AnyLayer} {q p : Window} (h : Sees as q p) : ∀ {bs : List AnyLayer},
    as.map shape = bs.map shape → Sees bs q p := by
  induction h with
  | nil p => intro bs e; cases List.map_eq_nil_iff.mp e.symm; exact .nil p
  | conv h1 h2 _ ih =>
    intro bs e
    obtain ⟨b, bs', rfl, e1, e2⟩ := List.map_eq_cons_iff.mp e.symm
    obtain ⟨k, rfl, d1, d2, d3, d4, d5⟩ := conv_of_shape e1.symm
    rw [← d2, ← d3]
    rw [← d3, ← d4] at h1 h2
    exact .conv h1 h2 (ih e2.symm)
  | maxPool _ ih =>
    intro bs e
    obtain ⟨b, bs', rfl, e1, e2⟩ := List.map_eq_cons_iff.mp e.symm
    obtain ⟨k, rfl, d1, d2, d3⟩ := maxPool_of_shape e1.symm
    rw [← d2, ← d3]
    exact .maxPool (ih e2.symm)
  | avgPool _ ih =>
    intro bs e
    obtain ⟨b, bs', rfl, e1, e2⟩ := List.map_eq_cons_iff.mp e.symm
    obtain ⟨k, rfl, d1, d2, d3⟩ := avgPool_of_shape e1.symm
    rw [← d2, ← d3]
    exact .avgPool (ih e2.symm)
  | act hf _ ih =>
    intro bs e
    obtain ⟨b, bs', rfl, e1, e2⟩ := List.map_eq_cons_iff.mp e.symm
    obtain ⟨k, rfl⟩ := act_of_shape e1
    exact .act hf (ih e2.symm)

theorem strides_of_shapes : ∀ {as bs : List AnyLayer}, as.map shape = bs.map shape →
    as.map rowStride = bs.map rowStride ∧ as.map colStride = bs.map colStride
  | [], bs, e => by cases List.map_eq_nil_iff.mp e.symm; exact ⟨rfl, rfl⟩
  | a :: as, bs, e => by
    obtain ⟨b, bs', rfl, e1, e2⟩ := List.map_eq_cons_iff.mp e.symm
    have ih := strides_of_shapes e2.symm
    have : rowStride a = rowStride b ∧ colStride a = colStride b := by
      cases a with
      | conv l => obtain ⟨k, rfl, _, _, e3, _⟩ := conv_of_shape e1.symm; simp [rowStride, colStride, e3]
      | maxPool l => obtain ⟨k, rfl, _, _, e3⟩ := maxPool_of_shape e1.symm; simp [rowStride, colStride, e3]
      | avgPool l => obtain ⟨k, rfl, _, _, e3⟩ := avgPool_of_shape e1.symm; simp [rowStride, colStride, e3]
      | _ =>
        cases b with
        | conv l => obtain ⟨k, hk, _⟩ := conv_of_shape e1; cases hk
        | maxPool l => obtain ⟨k, hk, _⟩ := maxPool_of_shape e1; cases hk
        | avgPool l => obtain ⟨k, hk, _⟩ := avgPool_of_shape e1; cases hk
        | _ => exact ⟨rfl, rfl⟩
    exact ⟨by simp [this.1, ih.1], by simp [this.2, ih.2]⟩

end

end Verif.Net

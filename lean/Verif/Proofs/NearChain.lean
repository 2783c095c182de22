import Verif.Proofs.Near
import Verif.Props.Dense

/-
Every stage, and every chain of stages, tracks its exact version.
-/

namespace Verif.Float
open Spec Slide Filter Topology

variable {ι : Type} {F : Filter ι} {A : ι → Arith} {L : ∀ i, Lib (A i)}

/-- A stage whose computed elements are known. -/
theorem tracks_of {n : Nat} {R : ∀ i, Exec (List (Fl (A i)))} {r : Exec (List ℝ)} {V : ∀ i, Nat → Fl (A i)}
    {v : Nat → ℝ} (hr : r = .ok (tab n v)) (hR : ∀ᶠ i in F, R i = .ok (tab n (V i)))
    (h : ∀ j, j < n → Near F (fun i => V i j) (v j)) : Tracks F R r n :=
  ⟨_, hr, by simp, _, hR, nearL_tab h⟩

theorem eq_tab_of {α : Type} {d : List α} {n : Nat} {v : Nat → α} (hl : d.length = n)
    (h : ∀ j, j < n → d[j]? = some (v j)) : d = tab n v := by
  apply List.ext_getElem?
  intro j
  by_cases hj : j < n
  · rw [h j hj, tab_getElem? _ hj]
  · rw [List.getElem?_eq_none (by omega), tab_getElem?_none _ (by omega)]

theorem dense_tab {α : Type} [Zero α] [Add α] [Mul α] {x w b : List α} {n m : Nat} (hx : x.length = n)
    (hw : w.length = m * n) (hb : b.length = m) :
    Dense.dense (List.replicate m 0) x w b n m
      = .ok (tab m fun i => ordSum (vec b i) n fun j => mat w n i j * vec x j) := by
  obtain ⟨d, h1, h2, h3, _⟩ := Props.C04_dense_forward (List.replicate m 0) x w b n m (by simp) (by omega)
    (by omega) (by omega)
  rw [h1, eq_tab_of (by rw [h2]; simp) h3]

theorem out_dm' {R C n q : Nat} (hq : q < R * C * n) :
    q / n / C < R ∧ q / n % C < C ∧ q % n < n ∧ (q / n / C * C + q / n % C) * n + q % n = q := by
  have hn : 0 < n := by
    rcases Nat.eq_zero_or_pos n with h | h
    · subst h; simp at hq
    · exact h
  have h1 : q / n < R * C := by rw [Nat.div_lt_iff_lt_mul hn]; exact hq
  have hC : 0 < C := by
    rcases Nat.eq_zero_or_pos C with h | h
    · subst h; simp at h1
    · exact h
  refine ⟨by rw [Nat.div_lt_iff_lt_mul hC]; exact h1, Nat.mod_lt _ hC, Nat.mod_lt _ hn, ?_⟩
  rw [Nat.mul_comm (q / n / C) C, Nat.div_add_mod, Nat.mul_comm, Nat.div_add_mod]

/-- A sliding-window result, element by element. -/
theorem slide_tab {α : Type} {d : List α} {R C n : Nat} {V : Nat → Nat → Nat → α} (hl : d.length = R * C * n)
    (h : ∀ r c f, r < R → c < C → f < n → d[(r * C + c) * n + f]? = some (V r c f)) :
    d = tab (R * C * n) fun q => V (q / n / C) (q / n % C) (q % n) := by
  refine eq_tab_of hl ?_
  intro q hq
  obtain ⟨h1, h2, h3, h4⟩ := out_dm' hq
  have := h _ _ _ h1 h2 h3
  rwa [h4] at this

theorem near_under {g : Geom} {X : ∀ i, List (Fl (A i))} {x : List ℝ} (hX : NearL F X x)
    (hx : x.length = g.src.h * g.src.w * g.src.c) {r c ki : Nat} (hki : ki < g.kh * g.kw * g.src.c)
    (hin : Inside g r c ki) : Near F (fun i => under g (vec (X i)) r c ki) (under g (vec x) r c ki) := by
  obtain ⟨hc, hw, ha, hb, hch, hkie⟩ := ki_split g hki
  unfold Inside at hin
  unfold under padded
  rw [if_pos hin]
  simp only [if_pos hin]
  apply hX.2
  rw [hx]
  exact cellIdx_lt (by omega) (by omega) hch

theorem tracks_stage (hF : Fine F A L) {s : Stage} {n m : Nat} (hs : StageFits s n m)
    {X : ∀ i, List (Fl (A i))} {x : List ℝ} (hx : x.length = n) (hX : NearL F X x) :
    Tracks F (fun i => s.runF (L i) (X i)) (s.run x) m := by
  cases s with
  | dense n' m' w b =>
    obtain ⟨rfl, rfl, hw, hb⟩ := hs
    refine tracks_of (V := fun i j => ordSum (vec (fins (A i) b) j) n fun k =>
      mat (fins (A i) w) n j k * vec (X i) k) (dense_tab hx hw hb) ?_ ?_
    · filter_upwards [hX.1] with i h
      exact dense_tab (by omega) (by simpa [fins] using hw) (by simpa [fins] using hb)
    · intro j hj
      refine near_ordSum hF ((nearL_fins b).2 j (by omega)) ?_
      intro k hk
      refine near_mul hF ?_ (hX.2 k (by omega))
      exact (near_const (mat w n j k)).congr (Eventually.of_forall fun i => mat_fins w n j k)
  | conv sh k nf st pd size w =>
    obtain ⟨g, hg, rfl, rfl, rfl, rfl, hi, rfl, rfl, hw⟩ := hs
    have e1 : Stage.run (.conv g.src ⟨g.kh, g.kw⟩ nf ⟨g.sh, g.sw⟩ ⟨g.ph, g.pw⟩ (g.rows * g.cols * nf) w) x
        = .ok (tab (g.rows * g.cols * nf) fun q =>
          ordSumIf (Inside g (q / nf / g.cols) (q / nf % g.cols)) 0 (g.kh * g.kw * g.src.c) fun ki =>
            under g (vec x) (q / nf / g.cols) (q / nf % g.cols) ki * vec w (ki * nf + q % nf)) := by
      obtain ⟨d, h1, h2, h3, _⟩ := crossCorrelation_ord hg (nf := nf)
        (dst := List.replicate (g.rows * g.cols * nf) 0) (src := x) (k := w) (by simp) (by omega) (by dsimp only at hw; omega)
      exact h1.trans (congrArg Exec.ok (slide_tab (by rw [h2]; simp) h3))
    refine tracks_of (V := fun i q =>
          ordSumIf (Inside g (q / nf / g.cols) (q / nf % g.cols)) 0 (g.kh * g.kw * g.src.c) fun ki =>
            under g (vec (X i)) (q / nf / g.cols) (q / nf % g.cols) ki * vec (fins (A i) w) (ki * nf + q % nf))
      e1 ?_ ?_
    · filter_upwards [hX.1] with i h
      obtain ⟨d, h1, h2, h3, _⟩ := crossCorrelation_ord hg (nf := nf)
        (dst := List.replicate (g.rows * g.cols * nf) 0) (src := X i) (k := fins (A i) w) (by simp)
        (by omega) (by dsimp only at hw; simp only [fins, List.length_map]; omega)
      exact h1.trans (congrArg Exec.ok (slide_tab (by rw [h2]; simp) h3))
    · intro q hq
      obtain ⟨q1, q2, q3, q4⟩ := out_dm' hq
      refine near_ordSumIf hF near_zero ?_
      intro ki hki hin
      refine near_mul hF (near_under hX (by omega) hki hin) ?_
      exact (near_const _).congr (Eventually.of_forall fun i => vec_fins w _)
  | maxPool sh k st size =>
    obtain ⟨g, hg, hp, rfl, rfl, rfl, hi, rfl, rfl⟩ := hs
    have hK : 0 < g.kh * g.kw := Nat.mul_pos hg.kh_pos hg.kw_pos
    have e1 : Stage.run (.maxPool g.src ⟨g.kh, g.kw⟩ ⟨g.sh, g.sw⟩ (g.rows * g.cols * g.src.c)) x
        = .ok (tab (g.rows * g.cols * g.src.c) fun q =>
          runMax (fun ki => vec x (cellNo g (q / g.src.c / g.cols) (q / g.src.c % g.cols) (q % g.src.c) ki))
            (g.kh * g.kw)) := by
      obtain ⟨d, h1, h2, h3, _⟩ := maxPool_spec hg hp
        (dst := List.replicate (g.rows * g.cols * g.src.c) 0) (src := x) (by simp) (by omega)
      exact h1.trans (congrArg Exec.ok (slide_tab (by rw [h2]; simp) h3))
    refine tracks_of (V := fun i q =>
          runMax (fun ki => vec (X i) (cellNo g (q / g.src.c / g.cols) (q / g.src.c % g.cols) (q % g.src.c) ki))
            (g.kh * g.kw)) e1 ?_ ?_
    · filter_upwards [hX.1] with i h
      obtain ⟨d, h1, h2, h3, _⟩ := maxPool_spec hg hp
        (dst := List.replicate (g.rows * g.cols * g.src.c) 0) (src := X i) (by simp) (by omega)
      exact h1.trans (congrArg Exec.ok (slide_tab (by rw [h2]; simp) h3))
    · intro q hq
      obtain ⟨q1, q2, q3, q4⟩ := out_dm' hq
      refine near_runMax hK ?_
      intro ki hki
      apply hX.2
      have := cellNo_lt hg hp q1 q2 hki q3
      omega
  | avgPool sh k st size =>
    obtain ⟨g, hg, hp, rfl, rfl, rfl, hi, rfl, rfl⟩ := hs
    have hK : 0 < g.kh * g.kw := Nat.mul_pos hg.kh_pos hg.kw_pos
    have e1 : Stage.run (.avgPool g.src ⟨g.kh, g.kw⟩ ⟨g.sh, g.sw⟩ (g.rows * g.cols * g.src.c)) x
        = .ok (tab (g.rows * g.cols * g.src.c) fun q =>
          ordSum 0 (g.kh * g.kw)
            (fun ki => vec x (cellNo g (q / g.src.c / g.cols) (q / g.src.c % g.cols) (q % g.src.c) ki))
            / ((g.kh * g.kw : Nat) : ℝ)) := by
      obtain ⟨d, h1, h2, h3, _⟩ := avgPool_ord hg hp
        (dst := List.replicate (g.rows * g.cols * g.src.c) 0) (src := x) (by simp) (by omega)
      exact h1.trans (congrArg Exec.ok (slide_tab (by rw [h2]; simp) h3))
    refine tracks_of (V := fun i q =>
          ordSum 0 (g.kh * g.kw)
            (fun ki => vec (X i) (cellNo g (q / g.src.c / g.cols) (q / g.src.c % g.cols) (q % g.src.c) ki))
            / ((g.kh * g.kw : Nat) : Fl (A i))) e1 ?_ ?_
    · filter_upwards [hX.1] with i h
      obtain ⟨d, h1, h2, h3, _⟩ := avgPool_ord hg hp
        (dst := List.replicate (g.rows * g.cols * g.src.c) 0) (src := X i) (by simp) (by omega)
      exact h1.trans (congrArg Exec.ok (slide_tab (by rw [h2]; simp) h3))
    · intro q hq
      obtain ⟨q1, q2, q3, q4⟩ := out_dm' hq
      refine near_div hF (near_ordSum hF near_zero ?_) (near_nat hF _) (by exact_mod_cast hK.ne')
      intro ki hki
      apply hX.2
      have := cellNo_lt hg hp q1 q2 hki q3
      omega
  | relu n' =>
    obtain ⟨rfl, rfl⟩ := hs
    exact tracks_map (fun _ => reluF) Act.relu (fun _ _ h => near_relu h) hx hX
  | elu a n' =>
    obtain ⟨rfl, rfl⟩ := hs
    exact tracks_map (fun i => eluF (L i) (.fin a)) (Act.elu a) (fun _ _ h => near_elu hF h) hx hX
  | tanh n' =>
    obtain ⟨rfl, rfl⟩ := hs
    exact tracks_map (fun i => (L i).tanhF) Act.tanh (fun _ _ h => near_tanh hF h) hx hX
  | sigmoid n' =>
    obtain ⟨rfl, rfl⟩ := hs
    exact tracks_map (fun i => sigmoidF (L i)) Act.sigmoid (fun _ _ h => near_sigmoid hF h) hx hX
  | softmax n' =>
    obtain ⟨rfl, h2, hn⟩ := hs
    subst m
    refine tracks_of (V := fun i j => (L i).expF (vec (X i) j - runMax (vec (X i)) n)
          * (1 / ordSum 0 n fun j => (L i).expF (vec (X i) j - runMax (vec (X i)) n)))
      (Act.stableSoftmax_eq hn (by simp) (by omega)) ?_ ?_
    · filter_upwards [hX.1] with i h
      exact stableSoftmaxF_eq (L i) hn (by simp) (by omega)
    · intro j hj
      have hmax : Near F (fun i => runMax (vec (X i)) n) (runMax (vec x) n) :=
        near_runMax hn fun j hj => hX.2 j (by omega)
      have hexp : ∀ j, j < n → Near F (fun i => (L i).expF (vec (X i) j - runMax (vec (X i)) n))
          (Real.exp (vec x j - runMax (vec x) n)) := fun j hj =>
        near_exp hF (near_sub hF (hX.2 j (by omega)) hmax)
      have hpos := Act.sum_exp_pos hn fun j => vec x j - runMax (vec x) n
      have hsum : Near F (fun i => ordSum 0 n fun j => (L i).expF (vec (X i) j - runMax (vec (X i)) n))
          (∑ j ∈ Finset.range n, Real.exp (vec x j - runMax (vec x) n)) := by
        have := near_ordSum hF near_zero hexp
        rwa [ordSum_eq_sum, zero_add] at this
      have key := near_mul hF (hexp j hj) (near_div hF near_one hsum hpos.ne')
      have e : Real.exp (vec x j - runMax (vec x) n)
          * (1 / ∑ j ∈ Finset.range n, Real.exp (vec x j - runMax (vec x) n)) = softmaxFn n (vec x) j := by
        rw [← Act.softmaxFn_shift (vec x) (-runMax (vec x) n), mul_one_div]
        rfl
      rwa [e] at key
  | linear =>
    cases hs
    exact ⟨x, rfl, hx, X, Eventually.of_forall fun i => rfl, hX⟩

theorem tracks_chain (hF : Fine F A L) {ss : List Stage} {n m : Nat} (hs : ChainFits ss n m)
    {X : ∀ i, List (Fl (A i))} {x : List ℝ} (hx : x.length = n) (hX : NearL F X x) :
    Tracks F (fun i => runAllF (L i) ss (X i)) (runAll ss x) m := by
  induction ss generalizing n X x with
  | nil =>
    cases hs
    exact ⟨x, rfl, hx, X, Eventually.of_forall fun i => rfl, hX⟩
  | cons s ss ih =>
    obtain ⟨k, h1, h2⟩ := hs
    obtain ⟨y, e1, hy, Y, e2, hY⟩ := tracks_stage hF h1 hx hX
    obtain ⟨z, e3, hz, Z, e4, hZ⟩ := ih h2 hy hY
    refine ⟨z, ?_, hz, Z, ?_, hZ⟩
    · show (s.run x >>= _) = _
      rw [e1, Exec.bind_ok, e3]
    · filter_upwards [e2, e4] with i e2 e4
      show ((s.runF (L i) (X i)) >>= _) = _
      rw [e2, Exec.bind_ok, e4]

/-! ### All formats -/

/-- A format with its library. -/
structure Format where
  A : Arith
  L : Lib A

/-- The worst of the errors of a format. -/
noncomputable def Format.worst (f : Format) : ℝ := max (max f.A.u f.A.e) (max f.L.v (1 / f.A.big))

/-- Formats becoming exact. -/
noncomputable def fine : Filter Format := comap Format.worst (𝓝 0)

theorem worst_nonneg (f : Format) : 0 ≤ f.worst := le_max_of_le_left (le_max_of_le_left f.A.u_nonneg)

theorem fine_isFine : Fine fine Format.A Format.L := by
  have h : Tendsto Format.worst fine (𝓝 0) := tendsto_comap
  refine ⟨?_, ?_, ?_, ?_⟩
  · exact squeeze_zero (fun f => f.A.u_nonneg) (fun f => le_max_of_le_left (le_max_left _ _)) h
  · exact squeeze_zero (fun f => f.A.e_nonneg) (fun f => le_max_of_le_left (le_max_right _ _)) h
  · exact squeeze_zero (fun f => f.L.v_nonneg) (fun f => le_max_of_le_right (le_max_left _ _)) h
  · have hb : Tendsto (fun f : Format => 1 / f.A.big) fine (𝓝 0) :=
      squeeze_zero (fun f => by have := f.A.one_lt_big; exact div_nonneg zero_le_one (by linarith))
        (fun f => le_max_of_le_right (le_max_right _ _)) h
    have hb' : Tendsto (fun f : Format => 1 / f.A.big) fine (𝓝[>] 0) := by
      rw [tendsto_nhdsWithin_iff]
      exact ⟨hb, Eventually.of_forall fun f => by
        have := f.A.one_lt_big
        show 0 < 1 / f.A.big
        exact div_pos one_pos (by linarith)⟩
    have := hb'.inv_tendsto_nhdsGT_zero
    refine this.congr fun f => ?_
    simp

theorem eventually_fine {P : Format → Prop} (h : ∀ᶠ f in fine, P f) :
    ∃ δ, 0 < δ ∧ ∀ f : Format, Precise f.A f.L δ → P f := by
  obtain ⟨δ, hδ, h⟩ := ((Metric.nhds_basis_closedBall (x := (0 : ℝ))).comap Format.worst).eventually_iff.mp h
  refine ⟨δ, hδ, fun f hf => h ?_⟩
  rw [Set.mem_preimage, Metric.mem_closedBall, Real.dist_0_eq_abs, abs_of_nonneg (worst_nonneg f)]
  refine max_le (max_le hf.u hf.e) (max_le hf.v ?_)
  have := f.A.one_lt_big
  rw [div_le_iff₀ (by linarith)]
  have := hf.big
  rw [div_le_iff₀ hδ] at this
  linarith

/-! ### A library that rounds correctly -/

/-- The library whose functions return the rounded exact value. -/
noncomputable def Lib.correct (A : Arith) : Lib A where
  exp x := A.rnd (Real.exp x)
  tanh x := A.rnd (Real.tanh x)
  log x := A.rnd (Real.log x)
  v := A.u
  v_nonneg := A.u_nonneg
  exp_err x := by
    have := A.err (Real.exp x)
    rwa [abs_of_pos (Real.exp_pos x)] at this
  exp_nonneg x := by
    have := A.mono 0 _ (Real.exp_pos x).le
    rwa [A.zero] at this
  exp_le_one x hx := by
    have := A.mono _ _ (Real.exp_le_one_iff.mpr hx)
    rwa [A.one] at this
  exp_zero := by simp [A.one]
  tanh_err x := A.err _
  tanh_range x := by
    have h := Real.abs_tanh_lt_one x
    rw [abs_lt] at h
    have h1 := A.mono _ _ h.1.le
    have h2 := A.mono _ _ h.2.le
    rw [A.neg, A.one] at h1
    rw [A.one] at h2
    exact abs_le.mpr ⟨h1, h2⟩
  log_err x _ := A.err _

end Verif.Float

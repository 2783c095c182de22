import Verif.Spec.FloatTrain
import Verif.Proofs.NearChain
import Verif.Proofs.Finite
import Verif.Proofs.BackFit

/-
Training in floating point tends to training in exact arithmetic as the format becomes exact: one layer.
-/

namespace Verif.Float
open Spec Slide Filter Topology Verif.Net

variable {ι : Type} {F : Filter ι} {A : ι → Arith} {L : ∀ i, Lib (A i)}

theorem near_ev_pos {X : ∀ i, Fl (A i)} {a : ℝ} (hX : Near F X a) (h : 0 < a) : ∀ᶠ i in F, 0 < X i := by
  obtain ⟨s, h1, h2⟩ := hX
  filter_upwards [h1, h2.eventually (lt_mem_nhds h)] with i h1 h2
  rw [h1]
  exact (fl_lt _ _).mpr h2

theorem near_ev_neg {X : ∀ i, Fl (A i)} {a : ℝ} (hX : Near F X a) (h : a < 0) :
    ∀ᶠ i in F, X i < 0 ∧ ¬ 0 < X i := by
  obtain ⟨s, h1, h2⟩ := hX
  filter_upwards [h1, h2.eventually (gt_mem_nhds h)] with i h1 h2
  rw [h1]
  refine ⟨(fl_lt _ _).mpr h2, fun h => ?_⟩
  have : (0 : ℝ) < s i := (fl_lt _ _).mp h
  linarith

theorem near_relu1 {X : ∀ i, Fl (A i)} {a : ℝ} (hX : Near F X a) (h : a ≠ 0) :
    Near F (fun i => relu1F (reluF (X i))) (Act.relu1 (Act.relu a)) := by
  rcases lt_or_gt_of_ne h with h | h
  · have e : Act.relu1 (Act.relu a) = 0 := by simp [Act.relu, Act.relu1, h]
    rw [e]
    refine near_zero.congr ?_
    filter_upwards [near_ev_neg hX h] with i hi
    unfold reluF relu1F
    rw [if_pos hi.1, if_neg]
    exact fun h => lt_irrefl (0 : ℝ) ((fl_lt (A := A i) 0 0).mp h)
  · have e : Act.relu1 (Act.relu a) = 1 := by simp [Act.relu, Act.relu1, h, not_lt.mpr h.le]
    rw [e]
    refine near_one.congr ?_
    filter_upwards [near_ev_pos (near_relu hX) (by simpa [Act.relu, not_lt.mpr h.le] using h)] with i hi
    unfold relu1F
    rw [if_pos hi]

theorem near_elu1 (hF : Fine F A L) {X : ∀ i, Fl (A i)} {a alpha : ℝ} (hX : Near F X a) (h0 : 0 ≤ alpha)
    (h : alpha = 1 ∨ a ≠ 0) :
    Near F (fun i => elu1OptF (.fin alpha) (eluF (L i) (.fin alpha) (X i)))
      (Act.elu1Opt alpha (Act.elu alpha a)) := by
  have hy := near_elu (alpha := alpha) hF hX
  have hya : Near F (fun i => eluF (L i) (.fin alpha) (X i) + (.fin alpha : Fl (A i)))
      (Act.elu alpha a + alpha) := near_add hF hy (near_const alpha)
  rcases lt_trichotomy a 0 with ha | ha | ha
  · rcases h0.eq_or_lt with h0 | h0
    · subst h0
      have e : Act.elu1Opt 0 (Act.elu 0 a) = 0 := by simp [Act.elu, Act.elu1Opt, not_lt.mpr ha.le]
      rw [e]
      have e2 : Act.elu 0 a + 0 = 0 := by simp [Act.elu, not_lt.mpr ha.le]
      rw [e2] at hya
      refine hya.congr ?_
      obtain ⟨s, hs, _⟩ := near_sub hF (near_exp hF hX) near_one
      filter_upwards [near_ev_neg hX ha, hs] with i hi hs
      unfold elu1OptF
      rw [if_neg]
      unfold eluF
      rw [if_neg hi.2, hs, fl_mul, zero_mul]
      unfold Fl.round
      rw [(A i).zero]
      split
      · exact fun h => lt_irrefl (0 : ℝ) ((fl_lt (A := A i) 0 0).mp h)
      · next h => exact absurd (by simpa using lt_trans one_pos (A i).one_lt_big) h
    · have hlt : Act.elu alpha a < 0 := by
        have : Real.exp a < 1 := by simpa using ha
        simp only [Act.elu, gt_iff_lt, if_neg (not_lt.mpr ha.le)]
        exact mul_neg_of_pos_of_neg h0 (by linarith)
      have e : Act.elu1Opt alpha (Act.elu alpha a) = Act.elu alpha a + alpha := by
        unfold Act.elu1Opt
        rw [if_neg (not_lt.mpr hlt.le)]
      rw [e]
      refine hya.congr ?_
      filter_upwards [near_ev_neg hy hlt] with i hi
      unfold elu1OptF
      rw [if_neg hi.2]
  · have h1 : alpha = 1 := h.resolve_right (fun h => h ha)
    have e0 : Act.elu alpha a = 0 := by simp [Act.elu, ha]
    have e : Act.elu1Opt alpha (Act.elu alpha a) = 1 := by rw [e0, h1]; simp [Act.elu1Opt]
    rw [e]
    rw [e0, h1, zero_add] at hya
    refine near_ite _ near_one ?_
    rw [h1]
    exact hya
  · have e0 : Act.elu alpha a = a := by simp [Act.elu, ha]
    rw [e0] at hy ⊢
    have e : Act.elu1Opt alpha a = 1 := by simp [Act.elu1Opt, ha]
    rw [e]
    refine near_one.congr ?_
    filter_upwards [near_ev_pos hy ha] with i hi
    unfold elu1OptF
    rw [if_pos hi]

theorem near_tanh1 (hF : Fine F A L) {Y : ∀ i, Fl (A i)} {a : ℝ} (hY : Near F Y a) :
    Near F (fun i => tanh1OptF (Y i)) (Act.tanh1Opt a) :=
  near_sub hF near_one (near_mul hF hY hY)

theorem near_sigmoid1 (hF : Fine F A L) {Y : ∀ i, Fl (A i)} {a : ℝ} (hY : Near F Y a) :
    Near F (fun i => sigmoid1OptF (Y i)) (Act.sigmoid1Opt a) :=
  near_mul hF hY (near_sub hF near_one hY)

theorem near_stdMax {X Y : ∀ i, Fl (A i)} {a b : ℝ} (hX : Near F X a) (hY : Near F Y b) :
    Near F (fun i => stdMaxF (X i) (Y i)) (max a b) := by
  obtain ⟨s, h1, h2⟩ := hX
  obtain ⟨t, h3, h4⟩ := hY
  refine ⟨fun i => max (s i) (t i), ?_, h2.max h4⟩
  filter_upwards [h1, h3] with i h1 h3
  rw [h1, h3]
  unfold stdMaxF
  by_cases h : s i < t i
  · rw [if_pos ((fl_lt _ _).mpr h), max_eq_right h.le]
  · rw [if_neg (fun h' => h ((fl_lt _ _).mp h')), max_eq_left (not_lt.mp h)]

/-! ### Loss -/

theorem mse1F_eq {A : Arith} {dst y yh : List (Fl A)} {norm : Fl A} {n : Nat} (hd : dst.length = n)
    (hy : n ≤ y.length) (hh : n ≤ yh.length) :
    meanSquaredError1F dst y yh norm n = .ok (tab n fun i => squaredError1F (vec y i) (vec yh i) norm) := by
  unfold meanSquaredError1F
  have key := forUp_tab (n := n) (L := n) (f := vec dst)
    (r := fun i => squaredError1F (vec y i) (vec yh i) norm)
    (body := fun i dst => do
      let a ← rd y i
      let b ← rd yh i
      wr dst i (squaredError1F a b norm)) le_rfl ?_
  · rw [show dst = tab n (vec dst) by rw [← hd]; exact eq_tab dst]
    rw [key]
    congr 1
    apply tab_congr
    intro i hi; rw [if_pos hi]
  · intro i g hi
    rw [rd_vec (by omega), Exec.bind_ok, rd_vec (by omega), Exec.bind_ok, wr_tab _ _ hi]

theorem arrMulF_eq {A : Arith} {dst src : List (Fl A)} {n : Nat} (hd : dst.length = n) (hs : n ≤ src.length) :
    arrMulInPlaceF dst src n = .ok (tab n fun i => vec dst i * vec src i) := by
  unfold arrMulInPlaceF
  have key := forUp_steps (n := n) (s := dst)
    (F := fun k => tab n fun i => if i < k then vec dst i * vec src i else vec dst i)
    (body := fun i dst => do
      let a ← rd dst i
      let b ← rd src i
      wr dst i (a * b)) ?_ ?_
  · rw [key]
    congr 1
    apply tab_congr
    intro i hi
    rw [if_pos hi]
  · simp only [Nat.not_lt_zero, if_false]
    rw [← hd]
    exact (eq_tab dst).symm
  · intro i hi
    rw [rd_tab _ hi, Exec.bind_ok, rd_vec (by omega), Exec.bind_ok, wr_tab _ _ hi, if_neg (lt_irrefl i)]
    congr 1
    apply tab_congr
    intro k hk
    unfold upd
    by_cases h : k = i
    · subst h; rw [if_pos rfl, if_pos (by omega)]
    · rw [if_neg h]
      dsimp only
      by_cases h2 : k < i
      · rw [if_pos h2, if_pos (by omega)]
      · rw [if_neg h2, if_neg (by omega)]

/-- The gradient of the loss. -/
theorem near_lossGrad (hF : Fine F A L) (f : LossFn) {inv : ∀ i, Fl (A i)} {inv' : ℝ} (hi : Near F inv inv')
    {T Y : ∀ i, List (Fl (A i))} {t y : List ℝ} {m : Nat} (ht : t.length = m) (hy : y.length = m)
    (hT : NearL F T t) (hY : NearL F Y y) :
    ∃ G : ∀ i, List (Fl (A i)), (∀ᶠ i in F, lossGradF f (inv i) (T i) (Y i) = .ok (G i)) ∧
      NearL F G (tab m (lossGrad f inv' (vec t) (vec y))) := by
  cases f with
  | mse =>
    refine ⟨fun i => tab m fun j => squaredError1F (vec (T i) j) (vec (Y i) j) (inv i), ?_, ?_⟩
    · filter_upwards [hT.1, hY.1] with i h1 h2
      unfold lossGradF
      dsimp only
      rw [h2, hy]
      exact mse1F_eq (by simp) (by omega) (by omega)
    · refine nearL_tab fun j hj => ?_
      exact near_mul hF (near_mul hF (near_const (-2 : ℝ)) hi)
        (near_sub hF (hT.2 j (by omega)) (hY.2 j (by omega)))
  | cce =>
    refine ⟨fun i => tab m fun j => crossEntropyS1F (vec (T i) j) (vec (Y i) j) (inv i), ?_, ?_⟩
    · filter_upwards [hT.1, hY.1] with i h1 h2
      unfold lossGradF
      dsimp only
      rw [h2, hy]
      exact crossEntropy1F_eq (by simp) (by omega) (by omega)
    · refine nearL_tab fun j hj => ?_
      refine near_mul hF hi (near_div hF (near_neg (hT.2 j (by omega)))
        (near_stdMax (hY.2 j (by omega)) (near_const _)) ?_)
      have : (0 : ℝ) < Loss.numMin := by unfold Loss.numMin; positivity
      exact (lt_of_lt_of_le this (le_max_right _ _)).ne'

/-! ### One layer -/

/-- The floating-point layers `X` have the class and the sizes of `l`, their parameters tend to `P` and their
gradients to `G`. -/
def NearLayer (F : Filter ι) (X : ∀ i, FLayer (A i)) (n m : Nat) (l : AnyLayer) (P G : List (List ℝ)) : Prop :=
  match l with
  | .dense _ => ∃ (K : ∀ i, Dense.Layer (Fl (A i))) (w b gw gb : List ℝ), P = [w, b] ∧ G = [gw, gb] ∧
      w.length = m * n ∧ b.length = m ∧ gw.length = m * n ∧ gb.length = m ∧
      (∀ᶠ i in F, X i = .dense (K i) ∧ (K i).inputSize = n ∧ (K i).outputSize = m ∧ (K i).output.length = m ∧
        (K i).grads.input.length = n) ∧
      NearL F (fun i => (K i).weights) w ∧ NearL F (fun i => (K i).biases) b ∧
      NearL F (fun i => (K i).grads.weight) gw ∧ NearL F (fun i => (K i).grads.bias) gb
  | .act f _ => P = [] ∧ G = [] ∧ ∃ O GI : ∀ i, List (Fl (A i)), ∀ᶠ i in F, X i = .act f (O i) (GI i) ∧
      (f.isLinear = false → (O i).length = n) ∧ (GI i).length = n
  | _ => False

/-- What a training pass does to one layer, in exact arithmetic and in the limit. -/
def LayerPass (F : Filter ι) (L : ∀ i, Lib (A i)) (X : ∀ i, FLayer (A i)) (n m : Nat) (l : AnyLayer)
    (P G : List (List ℝ)) (XI : ∀ i, List (Fl (A i))) (x : List ℝ) : Prop :=
  ∃ z GI GP, AdjointWith n m l x z GI GP ∧ ∃ X1 : ∀ i, FLayer (A i),
    (∀ᶠ i in F, (X i).trainingForward (L i) (XI i) = .ok (X1 i)) ∧ NearL F (fun i => (X1 i).output) z ∧
    ∀ (GG : ∀ i, List (Fl (A i))) (g : List ℝ), g.length = m → NearL F GG g → ∃ X2 : ∀ i, FLayer (A i),
      (∀ᶠ i in F, (X1 i).backward (GG i) = .ok (X2 i)) ∧ NearL F (fun i => (X2 i).inputGradient) (GI g) ∧
      ∃ G', NearLayer F X2 n m l P G' ∧ ∀ b k, b < P.length → k < (P.getD b []).length →
        entry G' b k = entry G b k + GP g b k

theorem row_lt {n m i j : Nat} (hi : i < m) (hj : j < n) : i * n + j < m * n :=
  calc i * n + j < i * n + n := by omega
    _ = (i + 1) * n := by ring
    _ ≤ m * n := Nat.mul_le_mul_right n hi

theorem dense_pass (hF : Fine F A L) {X : ∀ i, FLayer (A i)} {n m : Nat} {l : Dense.Layer ℝ}
    {G : List (List ℝ)} (hm : Maps n m (.dense l))
    (h : NearLayer F X n m (.dense l) (AnyLayer.dense l).params G) {XI : ∀ i, List (Fl (A i))} {x : List ℝ}
    (hx : x.length = n) (hX : NearL F XI x) :
    LayerPass F L X n m (.dense l) (AnyLayer.dense l).params G XI x := by
  obtain ⟨K, w, b, gw, gb, hP, rfl, hw, hb, hgw, hgb, hK, nw, nb, ngw, ngb⟩ := h
  have hP' : l.weights = w ∧ l.biases = b := by
    have : [l.weights, l.biases] = [w, b] := hP
    simpa using this
  obtain ⟨rfl, rfl⟩ := hP'
  refine ⟨_, _, _, dense_adjointWith hm hx,
    fun i => .dense { K i with
      lastInput := XI i
      output := tab m fun j => ordSum (vec (K i).biases j) n fun k => mat (K i).weights n j k * vec (XI i) k },
    ?_, ?_, ?_⟩
  · filter_upwards [hK, nw.1, nb.1, hX.1] with i ⟨k1, k2, k3, k4, k5⟩ k6 k7 k8
    rw [k1]
    show (Dense.Layer.forward _ _ >>= _) = _
    unfold Dense.Layer.forward
    dsimp only
    rw [k4, k8, hx, Dense.dense_eq (by omega) (by omega) (by omega) (by omega), Exec.bind_ok, Exec.pure_eq_ok,
      Exec.bind_ok, k4]
    congr 3
    apply tab_congr
    intro j hj
    rw [if_pos hj]
  · refine nearL_tab fun j hj => ?_
    have := near_ordSum hF (nb.2 j (by omega)) (n := n) (T := fun i k => mat (K i).weights n j k * vec (XI i) k)
      (t := fun k => mat l.weights n j k * vec x k) (fun k hk =>
        near_mul hF (nw.2 (j * n + k) (by rw [hw]; exact row_lt hj hk)) (hX.2 k (by omega)))
    rwa [ordSum_eq_sum] at this
  · intro GG g hg hG
    refine ⟨fun i => .dense { K i with
      lastInput := XI i
      output := tab m fun j => ordSum (vec (K i).biases j) n fun k => mat (K i).weights n j k * vec (XI i) k
      grads := ⟨tab n fun j => ordSum 0 m fun a => vec (GG i) a * mat (K i).weights n a j,
        tab (m * n) fun q => vec (K i).grads.weight q + vec (GG i) (q / n) * vec (XI i) (q % n),
        tab m fun a => vec (K i).grads.bias a + vec (GG i) a⟩ }, ?_, ?_, 
      [tab (m * n) fun q => vec gw q + vec g (q / n) * vec x (q % n), tab m fun a => vec gb a + vec g a], ?_, ?_⟩
    · filter_upwards [hK, nw.1, ngw.1, ngb.1, hX.1, hG.1] with i ⟨k1, k2, k3, k4, k5⟩ k6 k7 k8 k9 k10
      show (Dense.Layer.backward _ _ >>= _) = _
      unfold Dense.Layer.backward
      dsimp only
      rw [k10, hg, k2, Dense.dense1_eq k5 (by omega) (by omega) (by omega) (by omega) (by omega), Exec.bind_ok,
        Exec.pure_eq_ok, Exec.bind_ok]
    · refine nearL_tab fun j hj => ?_
      exact near_ordSum hF near_zero fun a ha =>
        near_mul hF (hG.2 a (by omega)) (nw.2 (a * n + j) (by rw [hw]; exact row_lt ha hj))
    · refine ⟨fun i => { K i with
        lastInput := XI i
        output := tab m fun j => ordSum (vec (K i).biases j) n fun k => mat (K i).weights n j k * vec (XI i) k
        grads := ⟨tab n fun j => ordSum 0 m fun a => vec (GG i) a * mat (K i).weights n a j,
          tab (m * n) fun q => vec (K i).grads.weight q + vec (GG i) (q / n) * vec (XI i) (q % n),
          tab m fun a => vec (K i).grads.bias a + vec (GG i) a⟩ }, _, _, _, _, rfl, rfl, hw, hb, by simp, by simp,
        by filter_upwards [hK] with i ⟨k1, k2, k3, k4, k5⟩; exact ⟨rfl, k2, k3, by simp, by simp⟩, nw, nb, ?_, ?_⟩
      · refine nearL_tab fun q hq => ?_
        have hn : 0 < n := Nat.pos_of_ne_zero (by rintro rfl; simp at hq)
        have hd : q / n < m := Nat.div_lt_of_lt_mul (by rw [Nat.mul_comm]; exact hq)
        have hr : q % n < n := Nat.mod_lt _ hn
        exact near_add hF (ngw.2 q (by omega)) (near_mul hF (hG.2 _ (by omega)) (hX.2 _ (by omega)))
      · exact nearL_tab fun a ha => near_add hF (ngb.2 a (by omega)) (hG.2 a (by omega))
    · intro b k hb' hk
      have hb2 : b < 2 := hb'
      match b, hb2 with
      | 0, _ =>
        have hk' : k < m * n := by
          have : k < l.weights.length := hk
          omega
        show vec (tab _ _) k = _
        rw [vec_tab _ hk']
        simp [entry]
      | 1, _ =>
        have hk' : k < m := by
          have : k < l.biases.length := hk
          omega
        show vec (tab _ _) k = _
        rw [vec_tab _ hk']
        simp [entry]

/-- Activation classes that apply one function to every value. -/
theorem pointwise_pass (hF : Fine F A L) {X : ∀ i, FLayer (A i)} {n m : Nat} {f : ActFn} {l : Act.Layer}
    {P G : List (List ℝ)} (h : NearLayer F X n m (.act f l) P G) {XI : ∀ i, List (Fl (A i))} {x : List ℝ}
    (hx : x.length = n) (hX : NearL F XI x) (hmn : m = n) (hl : f.isLinear = false)
    (fF f1F : ∀ i, Fl (A i) → Fl (A i)) (φ φo : ℝ → ℝ)
    (hf : ∀ i o x, actForwardF (L i) f o x = mapArrF (fF i) o x o.length)
    (hb : ∀ i (o gi g : List (Fl (A i))), actBackwardF f o gi g = do
      let ig ← mapArrF (f1F i) gi o gi.length
      arrMulInPlaceF ig g gi.length)
    (h1 : ∀ (V : ∀ i, Fl (A i)) v, Near F V v → Near F (fun i => fF i (V i)) (φ v))
    (h2 : ∀ (V : ∀ i, Fl (A i)) v, v ∈ x → Near F V v → Near F (fun i => f1F i (fF i (V i))) (φo (φ v)))
    (ha : AdjointWith n n (.act f l) x (tab n fun i => φ (vec x i))
      (fun g => tab n fun i => φo (φ (vec x i)) * vec g i) (fun _ _ _ => 0)) :
    LayerPass F L X n m (.act f l) P G XI x := by
  subst hmn
  obtain ⟨rfl, rfl, O, GI, hO⟩ := h
  refine ⟨_, _, _, ha, fun i => .act f (tab m fun j => fF i (vec (XI i) j)) (GI i), ?_, ?_, ?_⟩
  · filter_upwards [hO, hX.1] with i ⟨k1, k2, k3⟩ k4
    rw [k1]
    show (actForwardF _ _ _ _ >>= _) = _
    rw [hf, k2 hl, mapArrF_eq (fF i) (k2 hl) (by omega), Exec.bind_ok]
  · exact nearL_tab fun j hj => h1 _ _ (hX.2 j (by omega))
  · intro GG g hg hG
    refine ⟨fun i => .act f (tab m fun j => fF i (vec (XI i) j))
      (tab m fun j => f1F i (fF i (vec (XI i) j)) * vec (GG i) j), ?_, ?_, [], ⟨rfl, rfl, _, _, 
        Eventually.of_forall fun i => ⟨rfl, fun _ => by simp, by simp⟩⟩, ?_⟩
    · filter_upwards [hO, hG.1] with i ⟨k1, k2, k3⟩ k4
      show (actBackwardF _ _ _ _ >>= _) = _
      rw [hb, k3, mapArrF_eq (f1F i) k3 (by simp), Exec.bind_ok, arrMulF_eq (by simp) (by omega), Exec.bind_ok]
      congr 2
      apply tab_congr
      intro j hj
      rw [vec_tab _ hj, vec_tab _ hj]
    · refine nearL_tab fun j hj => near_mul hF (h2 _ _ ?_ (hX.2 j (by omega))) (hG.2 j (by omega))
      exact List.mem_of_getElem? (getElem?_vec (by omega))
    · intro b k hb'
      exact absurd hb' (by simp)

theorem act_pass (hF : Fine F A L) {X : ∀ i, FLayer (A i)} {n m : Nat} {f : ActFn} {l : Act.Layer}
    {P G : List (List ℝ)} (hm : Maps n m (.act f l)) (h : NearLayer F X n m (.act f l) P G)
    {XI : ∀ i, List (Fl (A i))} {x : List ℝ} (hx : x.length = n) (hX : NearL F XI x)
    (hs : SmoothAt x (.act f l)) : LayerPass F L X n m (.act f l) P G XI x := by
  cases f with
  | relu =>
    obtain ⟨e, h2⟩ := hm
    exact pointwise_pass hF h hx hX e rfl (fun _ => reluF) (fun _ => relu1F) Act.relu Act.relu1
      (fun _ _ _ => rfl) (fun _ _ _ _ => rfl) (fun _ _ => near_relu) (fun _ v hv hV => near_relu1 hV (hs v hv))
      (pointwise_adjointWith rfl rfl rfl h2 hx fun hs v hv => by
        rw [Act.relu1_of_output]
        exact Act.relu_deriv (hs v hv))
  | elu a =>
    obtain ⟨e, h2⟩ := hm
    exact pointwise_pass hF h hx hX e rfl (fun i => eluF (L i) (.fin a)) (fun _ => elu1OptF (.fin a)) (Act.elu a)
      (Act.elu1Opt a) (fun _ _ _ => rfl) (fun _ _ _ _ => rfl) (fun _ _ => near_elu hF)
      (fun _ v hv hV => near_elu1 hF hV hs.1 (hs.2.imp id fun h => h v hv))
      (pointwise_adjointWith rfl rfl rfl h2 hx fun hs v hv => by
        obtain ⟨h3, h4⟩ := hs
        rw [Act.elu1_of_output h3]
        exact Act.elu_deriv (h4.elim Or.inr fun h => Or.inl (h v hv)))
  | tanh =>
    obtain ⟨e, h2⟩ := hm
    exact pointwise_pass hF h hx hX e rfl (fun i => (L i).tanhF) (fun _ => tanh1OptF) Act.tanh
      Act.tanh1Opt (fun _ _ _ => rfl) (fun _ _ _ _ => rfl) (fun _ _ => near_tanh hF)
      (fun _ v hv hV => near_tanh1 hF (near_tanh hF hV))
      (pointwise_adjointWith rfl rfl rfl h2 hx fun _ v _ => Act.tanh_deriv v)
  | sigmoid =>
    obtain ⟨e, h2⟩ := hm
    exact pointwise_pass hF h hx hX e rfl (fun i => sigmoidF (L i)) (fun _ => sigmoid1OptF) Act.sigmoid
      Act.sigmoid1Opt (fun _ _ _ => rfl) (fun _ _ _ _ => rfl) (fun _ _ => near_sigmoid hF)
      (fun _ v hv hV => near_sigmoid1 hF (near_sigmoid hF hV))
      (pointwise_adjointWith rfl rfl rfl h2 hx fun _ v _ => Act.sigmoid_deriv v)
  | softmax =>
    obtain ⟨e, h2, hn⟩ := hm
    subst e
    obtain ⟨rfl, rfl, O, GI, hO⟩ := h
    obtain ⟨y, e1, hy, Y, hY, nY⟩ := tracks_stage (s := .softmax m) hF (n := m) (m := m) ⟨rfl, rfl, hn⟩ hx hX
    have e2 : Stage.run (.softmax m) x = .ok (tab m (softmaxFn m (vec x))) :=
      Act.stableSoftmax_eq hn (by simp) (by omega)
    rw [e2] at e1
    cases e1
    have hY' : ∀ᶠ i in F, stableSoftmaxF (L i) (O i) (XI i) m = .ok (Y i) := by
      filter_upwards [hY, hO, hX.1] with i k1 ⟨k2, k3, k4⟩ k5
      rw [← k1]
      show _ = stableSoftmaxF (L i) (List.replicate m 0) (XI i) m
      rw [stableSoftmaxF_eq (L i) hn (k3 rfl) (by omega), stableSoftmaxF_eq (L i) hn (by simp) (by omega)]
    refine ⟨_, _, _, softmax_adjointWith hn h2 hx, fun i => .act .softmax (Y i) (GI i), ?_, nY, ?_⟩
    · filter_upwards [hO, hY'] with i ⟨k1, k2, k3⟩ k4
      rw [k1]
      show (stableSoftmaxF _ _ _ _ >>= _) = _
      rw [k2 rfl, k4, Exec.bind_ok]
    · intro GG g hg hG
      have hYl : ∀ᶠ i in F, (Y i).length = m := by
        filter_upwards [nY.1] with i k
        simpa using k
      refine ⟨fun i => .act .softmax (Y i) (tab m fun a => ordSum 0 m fun j =>
        vec (Y i) a * ((if a = j then 1 else 0) - vec (Y i) j) * vec (GG i) j), ?_, ?_, [], ⟨rfl, rfl, _, _, 
        hYl.mono fun i k => ⟨rfl, fun _ => k, by simp⟩⟩, ?_⟩
      · filter_upwards [hO, hG.1, hYl] with i ⟨k1, k2, k3⟩ k4 k5
        show (softmax1OptF _ _ _ _ >>= _) = _
        rw [k3, softmax1OptF_eq k3 (by omega) (by omega), Exec.bind_ok]
      · refine nearL_tab fun a ha => ?_
        have hv : ∀ j, j < m → Near F (fun i => vec (Y i) j) (softmaxFn m (vec x) j) := fun j hj => by
          have := nY.2 j (by simpa using hj)
          rwa [vec_tab _ hj] at this
        have := near_ordSum hF near_zero (n := m)
          (T := fun i j => vec (Y i) a * ((if a = j then 1 else 0) - vec (Y i) j) * vec (GG i) j)
          (t := fun j => softmaxFn m (vec x) a * ((if a = j then 1 else 0) - softmaxFn m (vec x) j) * vec g j)
          (fun j hj => near_mul hF (near_mul hF (hv a ha) (near_sub hF (by
            split
            · exact near_one
            · exact near_zero) (hv j hj))) (hG.2 j (by omega)))
        rwa [ordSum_eq_sum, zero_add] at this
      · intro b k hb'
        exact absurd hb' (by simp)
  | linear =>
    have e : m = n := hm
    subst e
    subst hx
    obtain ⟨rfl, rfl, O, GI, hO⟩ := h
    refine ⟨_, _, _, linear_adjointWith, fun i => .act .linear (XI i) (GI i), ?_, hX, ?_⟩
    · filter_upwards [hO] with i ⟨k1, k2, k3⟩
      rw [k1]
      rfl
    · intro GG g hg hG
      refine ⟨fun i => .act .linear (XI i) (GG i), ?_, hG, [], ⟨rfl, rfl, _, _, 
        hG.1.mono fun i k => ⟨rfl, fun h => (by cases h), k.trans hg⟩⟩, ?_⟩
      · filter_upwards [hO, hG.1] with i ⟨k1, k2, k3⟩ k4
        show (mapArrF _ _ _ _ >>= _) = _
        rw [k3, mapArrF_eq (fun g => g) k3 (by omega), Exec.bind_ok, ← hg, ← k4]
        rw [← eq_tab (GG i)]
      · intro b k hb'
        exact absurd hb' (by simp)

theorem layer_pass (hF : Fine F A L) {X : ∀ i, FLayer (A i)} {n m : Nat} {l : AnyLayer} {G : List (List ℝ)}
    (hp : Plain l) (hm : Maps n m l) (h : NearLayer F X n m l l.params G)
    {XI : ∀ i, List (Fl (A i))} {x : List ℝ} (hx : x.length = n) (hX : NearL F XI x)
    (hs : SmoothAt x l) : LayerPass F L X n m l l.params G XI x := by
  cases l with
  | dense l => exact dense_pass hF hm h hx hX
  | act f l => exact act_pass hF hm h hx hX hs
  | _ => exact hp.elim

end Verif.Float

import Verif.Proofs.Joint
import Verif.Proofs.Descent

/-! Parameter values of a list of layers as a vector, and gradient descent on them. -/

namespace Verif.Net
open Verif.Spec Finset

noncomputable section

/-- The parameters of a list of layers: layer, block, position. -/
abbrev PIdx (ls : List AnyLayer) : Type :=
  (j : Fin ls.length) × (b : Fin (ls.get j).params.length) × Fin ((ls.get j).params.get b).length

/-- Parameter values as blocks. -/
def ofVec {ls : List AnyLayer} (e : PIdx ls → ℝ) : Theta :=
  List.ofFn fun j => List.ofFn fun b => List.ofFn fun k => e ⟨j, b, k⟩

/-- Parameter values as a vector. -/
def toVec (ls : List AnyLayer) (θ : Theta) : PIdx ls → ℝ :=
  fun i => entry (θ.getD i.1 []) i.2.1 i.2.2

variable {ls : List AnyLayer}

theorem fits_ofVec (e : PIdx ls → ℝ) : FitsTheta ls (ofVec e) := by
  unfold FitsTheta ofVec
  apply List.ext_getElem
  · simp
  · intro j h1 h2
    simp only [List.getElem_map, List.getElem_ofFn]
    apply List.ext_getElem
    · simp
    · intro b h3 h4
      simp

theorem entry_ofVec (e : PIdx ls → ℝ) (i : PIdx ls) :
    entry ((ofVec e).getD i.1 []) i.2.1 i.2.2 = e i := by
  obtain ⟨j, b, k⟩ := i
  unfold entry ofVec vec
  simp

theorem getD_get {l : AnyLayer} {j b k : Nat} (hj : ls[j]? = some l) (hb : b < l.params.length)
    (hk : k < (l.params.getD b []).length) :
    ∃ i : PIdx ls, i.1.val = j ∧ i.2.1.val = b ∧ i.2.2.val = k ∧ ls.get i.1 = l := by
  obtain ⟨h1, rfl⟩ := List.getElem?_eq_some_iff.mp hj
  have hk' : k < (ls[j].params[b]).length := by
    rw [List.getD_eq_getElem?_getD, List.getElem?_eq_getElem hb] at hk
    exact hk
  exact ⟨⟨⟨j, h1⟩, ⟨b, hb⟩, ⟨k, hk'⟩⟩, rfl, rfl, rfl, rfl⟩

theorem idx_get (i : PIdx ls) : ls[i.1.val]? = some (ls.get i.1) ∧ i.2.1.val < (ls.get i.1).params.length ∧
    i.2.2.val < ((ls.get i.1).params.getD i.2.1.val []).length := by
  obtain ⟨j, b, k⟩ := i
  refine ⟨by simp, b.2, ?_⟩
  have : (ls.get j).params.getD b.val [] = (ls.get j).params.get b := by simp
  simp only [this]
  exact k.2

theorem block_length {θ : Theta} (h : FitsTheta ls θ) {j : Nat} {l : AnyLayer} (hj : ls[j]? = some l) :
    (θ.getD j []).length = l.params.length ∧
    ∀ b, ((θ.getD j []).getD b []).length = (l.params.getD b []).length := by
  obtain ⟨_, h2⟩ := fitsTheta_get h hj
  refine ⟨by simpa using congrArg List.length h2, fun b => ?_⟩
  have := congrArg (fun z => z.getD b 0) h2
  have e : ∀ ps : List (List ℝ), (ps.map List.length).getD b 0 = (ps.getD b []).length := by
    intro ps
    simp only [List.getD_eq_getElem?_getD, List.getElem?_map]
    cases ps[b]? <;> rfl
  simp only [e] at this
  exact this

theorem theta_ext {θ θ' : Theta} (h : FitsTheta ls θ) (h' : FitsTheta ls θ')
    (he : ∀ i : PIdx ls, entry (θ.getD i.1 []) i.2.1 i.2.2 = entry (θ'.getD i.1 []) i.2.1 i.2.2) :
    θ = θ' := by
  have l1 := fitsTheta_length h
  have l2 := fitsTheta_length h'
  apply List.ext_getElem (by omega)
  intro j h1 h2
  have hj : ls[j]? = some (ls[j]'(by omega)) := List.getElem?_eq_getElem (by omega)
  obtain ⟨a1, a2⟩ := block_length h hj
  obtain ⟨b1, b2⟩ := block_length h' hj
  have g1 : θ.getD j [] = θ[j] := by simp [List.getD_eq_getElem?_getD, h1]
  have g2 : θ'.getD j [] = θ'[j] := by simp [List.getD_eq_getElem?_getD, h2]
  rw [g1] at a1 a2
  rw [g2] at b1 b2
  apply List.ext_getElem (by omega)
  intro b h3 h4
  have a3 := a2 b
  have b3 := b2 b
  have g3 : θ[j].getD b [] = θ[j][b] := by simp [List.getD_eq_getElem?_getD, h3]
  have g4 : θ'[j].getD b [] = θ'[j][b] := by simp [List.getD_eq_getElem?_getD, h4]
  rw [g3] at a3
  rw [g4] at b3
  apply List.ext_getElem (by omega)
  intro k h5 h6
  obtain ⟨i, rfl, rfl, rfl, _⟩ := getD_get (k := k) hj (b := b) (by omega) (by omega)
  have := he i
  rw [g1, g2] at this
  unfold entry vec at this
  rw [g3, g4] at this
  simpa [List.getD_eq_getElem?_getD, h5, h6] using this

theorem ofVec_toVec {θ : Theta} (h : FitsTheta ls θ) : ofVec (toVec ls θ) = θ :=
  theta_ext (fits_ofVec _) h fun i => by rw [entry_ofVec]; rfl

theorem toVec_ofVec (e : PIdx ls → ℝ) : toVec ls (ofVec e) = e := funext fun i => entry_ofVec e i

theorem map_length_set {ps : List (List ℝ)} (b k : Nat) (v : ℝ) :
    (setEntry ps b k v).map List.length = ps.map List.length := by
  unfold setEntry
  apply List.ext_getElem
  · simp
  · intro i h1 h2
    simp only [List.getElem_map, List.getElem_set]
    split
    · next h =>
      subst h
      have : b < ps.length := by simpa using h2
      simp [List.getD_eq_getElem?_getD, this]
    · rfl

theorem fits_setTheta {θ : Theta} (h : FitsTheta ls θ) (j b k : Nat) (v : ℝ) :
    FitsTheta ls (setTheta θ j b k v) := by
  unfold FitsTheta at *
  rw [← h]
  unfold setTheta
  apply List.ext_getElem
  · simp
  · intro i h1 h2
    simp only [List.getElem_map, List.getElem_set]
    split
    · next h' =>
      subst h'
      have : j < θ.length := by simpa using h2
      rw [map_length_set]
      simp [List.getD_eq_getElem?_getD, this]
    · rfl

theorem entry_setEntry {ps : List (List ℝ)} {b k : Nat} (hb : b < ps.length) (hk : k < (ps.getD b []).length)
    (b' k' : Nat) (v : ℝ) :
    entry (setEntry ps b k v) b' k' = if b' = b ∧ k' = k then v else entry ps b' k' := by
  unfold entry setEntry
  by_cases h : b' = b
  · subst h
    have : (ps.set b' ((ps.getD b' []).set k v)).getD b' [] = (ps.getD b' []).set k v := by
      simp [List.getD_eq_getElem?_getD, hb]
    rw [this, vec_set hk]
    simp
  · have : (ps.set b ((ps.getD b []).set k v)).getD b' [] = ps.getD b' [] := by
      rw [List.getD_eq_getElem?_getD, List.getElem?_set_ne (Ne.symm h), ← List.getD_eq_getElem?_getD]
    rw [this, if_neg (by simp [h])]

theorem set_ofVec (e : PIdx ls → ℝ) (i : PIdx ls) (v : ℝ) :
    setTheta (ofVec e) i.1 i.2.1 i.2.2 v = ofVec (Function.update e i v) := by
  have hf := fits_ofVec e
  refine theta_ext (fits_setTheta hf _ _ _ _) (fits_ofVec _) fun i' => ?_
  rw [entry_ofVec]
  obtain ⟨h1, h2, h3⟩ := idx_get i
  obtain ⟨b1, b2⟩ := block_length hf h1
  have hlt : i.1.val < (ofVec e).length := by rw [fitsTheta_length hf]; exact i.1.2
  unfold setTheta
  by_cases hj : i'.1 = i.1
  · have hg : ((ofVec e).set i.1 (setEntry ((ofVec e).getD i.1 []) i.2.1 i.2.2 v)).getD i'.1 []
        = setEntry ((ofVec e).getD i.1 []) i.2.1 i.2.2 v := by
      rw [hj]; simp [List.getD_eq_getElem?_getD, hlt]
    rw [hg, entry_setEntry (by omega) (by rw [b2]; exact h3)]
    by_cases hi : i' = i
    · subst hi; simp
    · rw [Function.update_of_ne hi, if_neg]
      · have := entry_ofVec e i'
        have hv : i'.1.val = i.1.val := congrArg Fin.val hj
        simp only [hv] at this
        exact this
      · rintro ⟨c1, c2⟩
        apply hi
        obtain ⟨j, b, k⟩ := i
        obtain ⟨j', b', k'⟩ := i'
        dsimp only at hj c1 c2
        subst hj
        obtain rfl : b' = b := Fin.ext c1
        obtain rfl : k' = k := Fin.ext c2
        rfl
  · have hi : i' ≠ i := by rintro rfl; exact hj rfl
    have hne : i.1.val ≠ i'.1.val := fun h => hj (Fin.ext h.symm)
    rw [List.getD_eq_getElem?_getD, List.getElem?_set_ne hne, ← List.getD_eq_getElem?_getD,
      entry_ofVec, Function.update_of_ne hi]

instance : DecidablePred fun i : PIdx ls => Learned (ls.get i.1) i.2.1 := fun _ => Classical.dec _

theorem dtheta_ofVec {D : ((PIdx ls → ℝ) → ℝ) → Prop} (h : ∀ i, D fun e => e i) :
    DTheta D ls ofVec := by
  refine ⟨fits_ofVec, fun j l b k hj hb hk => ?_⟩
  obtain ⟨i, rfl, rfl, rfl, _⟩ := getD_get hj hb hk
  simp only [entry_ofVec]
  exact h i

/-- Not the biases of a convolution. -/
abbrev learnedIdx (ls : List AnyLayer) (i : PIdx ls) : Prop := Learned (ls.get i.1) i.2.1

/-- `θ` and `e` have the same values but for the biases of convolutions. -/
def Agree (ls : List AnyLayer) (θ : Theta) (e : PIdx ls → ℝ) : Prop :=
  FitsTheta ls θ ∧ ∀ i, learnedIdx ls i → toVec ls θ i = e i

/-- `c` does not depend on the biases of convolutions. -/
def BiasFree (ls : List AnyLayer) (c : Theta → ℝ) : Prop :=
  ∀ θ e, Agree ls θ e → c θ = c (ofVec e)

theorem agree_self {θ : Theta} (h : FitsTheta ls θ) : Agree ls θ (toVec ls θ) := ⟨h, fun _ _ => rfl⟩

theorem agree_update {θ : Theta} {e : PIdx ls → ℝ} (h : Agree ls θ e) (i : PIdx ls) (v : ℝ) :
    Agree ls (setTheta θ i.1 i.2.1 i.2.2 v) (Function.update e i v) := by
  refine ⟨fits_setTheta h.1 _ _ _ _, fun i' hi' => ?_⟩
  rw [← ofVec_toVec h.1, set_ofVec, toVec_ofVec]
  by_cases hi : i' = i
  · subst hi; simp
  · rw [Function.update_of_ne hi, Function.update_of_ne hi]
    exact h.2 i' hi'

theorem agree_deriv {c : Theta → ℝ} (hc : BiasFree ls c) {θ : Theta} {e : PIdx ls → ℝ} (h : Agree ls θ e)
    (hC : DifferentiableAt ℝ (fun e => c (ofVec e)) e) (i : PIdx ls) {d : ℝ}
    (hd : HasDerivAt (fun v => c (setTheta θ i.1 i.2.1 i.2.2 v)) d (toVec ls θ i)) :
    d = partials (learnedIdx ls) (fun e => c (ofVec e)) e i := by
  have hfun : (fun v => c (setTheta θ i.1 i.2.1 i.2.2 v)) = fun v => c (ofVec (Function.update e i v)) := by
    funext v
    exact hc _ _ (agree_update h i v)
  unfold partials
  by_cases hi : learnedIdx ls i
  · rw [if_pos hi]
    rw [hfun, h.2 i hi] at hd
    exact hd.unique (partials_hasDerivAt hC i)
  · rw [if_neg hi]
    have hconst : (fun v => c (setTheta θ i.1 i.2.1 i.2.2 v)) = fun _ => c (ofVec e) := by
      funext v
      refine hc _ _ ⟨fits_setTheta h.1 _ _ _ _, fun i' hi' => ?_⟩
      have hne : i' ≠ i := by rintro rfl; exact hi hi'
      rw [(agree_update h i v).2 i' hi', Function.update_of_ne hne]
    rw [hconst] at hd
    exact hd.unique (hasDerivAt_const _ _)

theorem agree_step {c : Theta → ℝ} (hc : BiasFree ls c) {θ θ' : Theta} {e : PIdx ls → ℝ}
    (h : Agree ls θ e) (hC : DifferentiableAt ℝ (fun e => c (ofVec e)) e) {eta : ℝ}
    (hs : GdStep ls eta c θ θ') :
    Agree ls θ' (e - eta • partials (learnedIdx ls) (fun e => c (ofVec e)) e) := by
  refine ⟨hs.1, fun i hi => ?_⟩
  obtain ⟨h1, h2, h3⟩ := idx_get i
  obtain ⟨d, d1, d2⟩ := hs.2 _ _ _ _ h1 hi h2 h3
  rw [agree_deriv hc h hC i d1] at d2
  show entry _ _ _ = _
  rw [d2]
  simp only [Pi.sub_apply, Pi.smul_apply, smul_eq_mul]
  rw [← h.2 i hi]
  rfl

theorem agree_slope {c : Theta → ℝ} (hc : BiasFree ls c) {θ : Theta} {e : PIdx ls → ℝ} (h : Agree ls θ e)
    (hC : DifferentiableAt ℝ (fun e => c (ofVec e)) e) (hs : HasSlope ls c θ) :
    ∃ i, partials (learnedIdx ls) (fun e => c (ofVec e)) e i ≠ 0 := by
  obtain ⟨j, l, b, k, d, h1, h2, h3, h4, h5⟩ := hs
  obtain ⟨i, rfl, rfl, rfl, _⟩ := getD_get h1 h2 h3
  exact ⟨i, by rw [← agree_deriv hc h hC i h4]; exact h5⟩

/-- One step with a small rate. -/
theorem gd_small {c : Theta → ℝ} (hc : BiasFree ls c) {θ : Theta} (hθ : FitsTheta ls θ)
    (hC : DifferentiableAt ℝ (fun e => c (ofVec e)) (toVec ls θ)) :
    ∃ δ > 0, ∀ eta : ℝ, 0 < eta → eta < δ → ∀ θ', GdStep ls eta c θ θ' →
      c θ' ≤ c θ ∧ (HasSlope ls c θ → c θ' < c θ) := by
  obtain ⟨δ, hδ, h⟩ := small_step (s := learnedIdx ls) hC
  refine ⟨δ, hδ, fun eta h1 h2 θ' hs => ?_⟩
  obtain ⟨h3, h4⟩ := h eta h1 h2
  rw [hc _ _ (agree_step hc (agree_self hθ) hC hs), hc _ _ (agree_self hθ)]
  refine ⟨h3, fun hsl => ?_⟩
  obtain ⟨i, hi⟩ := agree_slope hc (agree_self hθ) hC hsl
  exact h4 i hi

/-! ### The cost of a batch -/

theorem layer_biasFree {l : AnyLayer} {n m : Nat} (h : Maps n m l) (hg : HasGrads n m l)
    {ps qs : List (List ℝ)} (hp : ps.map List.length = l.params.map List.length)
    (hq : qs.map List.length = l.params.map List.length)
    (he : ∀ b k, Learned l b → b < l.params.length → k < (l.params.getD b []).length →
      entry ps b k = entry qs b k) {x : List ℝ} (hx : x.length = n) :
    ∃ y, y.length = m ∧ Yields (l.setParams ps) x y ∧ Yields (l.setParams qs) x y := by
  have hvec : ∀ {u v : List ℝ}, u.length = v.length → (∀ k, k < u.length → vec u k = vec v k) → u = v := by
    intro u v h1 h2
    apply List.ext_getElem h1
    intro k h3 h4
    have := h2 k h3
    simpa [vec, List.getD_eq_getElem?_getD, h3, h4] using this
  cases l with
  | dense l =>
    have hm := maps_setParams h hp
    obtain ⟨w, b, rfl⟩ := two_of_length (ps := ps) (by simpa [AnyLayer.params] using congrArg List.length hp)
    obtain ⟨w', b', rfl⟩ := two_of_length (ps := qs) (by simpa [AnyLayer.params] using congrArg List.length hq)
    simp [AnyLayer.params] at hp hq
    obtain rfl : w = w' := hvec (by omega) fun k hk =>
      he 0 k trivial (by simp [AnyLayer.params]) (by simpa [AnyLayer.params, hp.1] using hk)
    obtain rfl : b = b' := hvec (by omega) fun k hk =>
      he 1 k trivial (by simp [AnyLayer.params]) (by simpa [AnyLayer.params, hp.2] using hk)
    have := dense_yields (l := { l with weights := w, biases := b }) hm hx
    exact ⟨_, by simp, this, this⟩
  | conv l =>
    obtain ⟨w, b, rfl⟩ := two_of_length (ps := ps) (by simpa [AnyLayer.params] using congrArg List.length hp)
    obtain ⟨w', b', rfl⟩ := two_of_length (ps := qs) (by simpa [AnyLayer.params] using congrArg List.length hq)
    simp [AnyLayer.params] at hp hq
    obtain rfl : w = w' := hvec (by omega) fun k hk =>
      he 0 k rfl (by simp [AnyLayer.params]) (by simpa [AnyLayer.params, hp.1] using hk)
    obtain ⟨g, hg, h1, h2, h3, h4, h5, h6, h7, h8⟩ := h
    refine ⟨_, ?_, conv_yields (l := { l with weights := w, biases := b }) hg h1 h2 h3 h4
      (hp.1.trans h5) h6 h7 h8 hx, conv_yields (l := { l with weights := w, biases := b' }) hg h1 h2 h3 h4
      (hp.1.trans h5) h6 h7 h8 hx⟩
    simp
  | act f l =>
    simp only [setParams_nil]
    obtain ⟨y, h1, h2⟩ := yields_of_maps h hx
    exact ⟨y, h1, h2, h2⟩
  | maxPool l =>
    simp only [setParams_maxPool]
    obtain ⟨y, h1, h2⟩ := yields_of_maps h hx
    exact ⟨y, h1, h2, h2⟩
  | avgPool l =>
    simp only [setParams_avgPool]
    obtain ⟨y, h1, h2⟩ := yields_of_maps h hx
    exact ⟨y, h1, h2, h2⟩
  | dropout mx raw l => exact hg.elim
  | rnn f f1 l => exact hg.elim
  | loss f l => exact hg.elim

theorem layers_biasFree {n m : Nat} {ls : List AnyLayer} (h : Trainable n m ls) : ∀ {θ θ' : Theta},
    FitsTheta ls θ → FitsTheta ls θ' →
    (∀ (j : Nat) (l : AnyLayer) (b k : Nat), ls[j]? = some l → Learned l b → b < l.params.length →
      k < (l.params.getD b []).length → entry (θ.getD j []) b k = entry (θ'.getD j []) b k) →
    ∀ {x : List ℝ}, x.length = n → ∃ y, YieldsAll (withTheta ls θ) x y ∧ YieldsAll (withTheta ls θ') x y := by
  induction h with
  | nil n => intro θ θ' _ _ _ x _; exact ⟨x, by simpa [withTheta] using YieldsAll.nil x,
      by simpa [withTheta] using YieldsAll.nil x⟩
  | @cons n k m l ls h1 h2 _ ih =>
    intro θ θ' hθ hθ' he x hx
    obtain ⟨ps, θ, rfl, a1, a2⟩ := fitsTheta_cons hθ
    obtain ⟨qs, θ', rfl, b1, b2⟩ := fitsTheta_cons hθ'
    obtain ⟨z, z0, z1, z2⟩ := layer_biasFree h1 h2 a1 b1 (fun b k => he 0 l b k rfl) hx
    obtain ⟨y, y1, y2⟩ := ih a2 b2 (fun j l b k hj => he (j + 1) l b k hj) z0
    exact ⟨y, .cons z1 y1, .cons z2 y2⟩

theorem cost_biasFree {n m : Nat} {ls : List AnyLayer} (h : Trainable n m ls) {f : LossFn} (inv : ℝ)
    {samples : List (List ℝ × List ℝ)} (hs : ∀ s ∈ samples, s.1.length = n) :
    BiasFree ls fun θ => cost f m inv samples (withTheta ls θ) := by
  intro θ e he
  refine congrArg List.sum (List.map_congr_left ?_)
  intro s hs'
  obtain ⟨y, y1, y2⟩ := layers_biasFree h he.1 (fits_ofVec e) (fun j l b k hj hl hb hk => by
    obtain ⟨i, rfl, rfl, rfl, rfl⟩ := getD_get hj hb hk
    rw [entry_ofVec]
    exact he.2 i hl) (hs s hs')
  rw [prediction_of y1, prediction_of y2]

theorem cost_differentiableAt {n m : Nat} {ls : List AnyLayer} (h : Trainable n m ls) {f : LossFn} (inv : ℝ)
    {samples : List (List ℝ × List ℝ)} {θ : Theta} (hθ : FitsTheta ls θ)
    (hs : ∀ s ∈ samples, FitSample (withTheta ls θ) f n m s.1 s.2 ∧ SmoothAll (withTheta ls θ) s.1) :
    DifferentiableAt ℝ (fun e : PIdx ls → ℝ => cost f m inv samples (withTheta ls (ofVec e))) (toVec ls θ) := by
  refine cost_joint (e0 := toVec ls θ) (closed_differentiableAt _) (fun u h1 h2 => h1.log h2.ne')
    (fun u v h1 h2 => h1.congr_of_eventuallyEq h2) (fun u h1 => h1.continuousAt)
    (kept_differentiableAt _) (fun x l ps => smoothAt_setParams) h
    (dtheta_ofVec fun i => differentiableAt_apply i _) inv samples ?_
  rw [ofVec_toVec hθ]
  exact fun s h => ⟨(hs s h).1, along_of_smooth (hs s h).2⟩

theorem cost_contDiffAt {n m : Nat} {ls : List AnyLayer} (h : Trainable n m ls) {f : LossFn} (inv : ℝ)
    {samples : List (List ℝ × List ℝ)} {θ : Theta} (hθ : FitsTheta ls θ)
    (hs : ∀ s ∈ samples, FitSample (withTheta ls θ) f n m s.1 s.2 ∧
      Along SmoothTwiceAt (withTheta ls θ) s.1) :
    ContDiffAt ℝ 2 (fun e : PIdx ls → ℝ => cost f m inv samples (withTheta ls (ofVec e))) (toVec ls θ) := by
  refine cost_joint (e0 := toVec ls θ) (closed_contDiffAt _) (fun u h1 h2 => h1.log h2.ne')
    (fun u v h1 h2 => h1.congr_of_eventuallyEq h2) (fun u h1 => h1.continuousAt)
    (kept_contDiffAt _) (fun x l ps => smoothTwiceAt_setParams.mp) h
    (dtheta_ofVec fun i => (contDiff_apply ℝ ℝ i).contDiffAt) inv samples ?_
  rw [ofVec_toVec hθ]
  exact hs

end

end Verif.Net

import Verif.Proofs.BackFit
import Verif.Props.Parallel

/-! Rounds of the thread-parallel modes as steps of gradient descent. -/

namespace Verif.Net
open Verif.Spec Verif.Graph Verif.Training Finset

noncomputable section

/-- The parameter blocks of all layers replaced. -/
def withBlocks (n : Net) (P : List (List (List ℝ))) : Net :=
  ⟨n.graph, List.zipWith AnyLayer.setParams n.layers P⟩

theorem map_get {α β : Type} {p : List α} {f : α → Option β} {ks : List β} (h : p.map f = ks.map some)
    {j : Nat} {i : α} (hj : p[j]? = some i) : ∃ l, ks[j]? = some l ∧ f i = some l := by
  have := congrArg (fun z => z[j]?) h
  simp only [List.getElem?_map, hj, Option.map_some] at this
  cases hk : ks[j]? with
  | none => rw [hk] at this; cases this
  | some l =>
    rw [hk] at this
    simp only [Option.map_some, Option.some.injEq] at this
    exact ⟨l, rfl, this⟩

theorem ready_withBlocks {n : Net} {p : List Nat} {q : Nat} {ks : List AnyLayer} {f : LossFn} {nin m : Nat}
    {inv : ℝ} (hr : Ready n p q ks f nin m inv) {θ : Theta} (hθ : FitsTheta ks θ)
    {P : List (List (List ℝ))} (hP : p.map (fun i => P[i]?) = θ.map some) (hq : P[q]? = some []) :
    Ready (withBlocks n P) p q (withTheta ks θ) f nin m inv := by
  refine ⟨?_, trainable_withTheta hr.sizes hθ, ?_⟩
  · apply List.ext_getElem?
    intro j
    simp only [List.getElem?_map]
    cases hj : p[j]? with
    | none =>
      have hlen : (withTheta ks θ).length = p.length := by
        rw [withTheta_length hθ]
        simpa using (congrArg List.length hr.layers).symm
      have : p.length ≤ j := List.getElem?_eq_none_iff.mp hj
      rw [List.getElem?_eq_none (by omega)]
      rfl
    | some i =>
      obtain ⟨l, h1, h2⟩ := map_get hr.layers hj
      obtain ⟨ps, h3, h4⟩ := map_get hP hj
      simp only [Option.map_some]
      show some ((List.zipWith AnyLayer.setParams n.layers P)[i]?) = ((withTheta ks θ)[j]?).map some
      unfold withTheta
      rw [List.getElem?_zipWith, List.getElem?_zipWith, h1, h2, h3, h4]
      rfl
  · obtain ⟨l, h1, h2⟩ := hr.loss
    refine ⟨l, ?_, h2⟩
    show (List.zipWith AnyLayer.setParams n.layers P)[q]? = _
    rw [List.getElem?_zipWith, h1, hq]
    rfl

theorem fits_of_core {ls ks : List AnyLayer} {θ : Theta} (h : ks.map AnyLayer.params = ls.map AnyLayer.params)
    (hf : FitsTheta ls θ) : FitsTheta ks θ := by
  unfold FitsTheta at hf ⊢
  rw [hf]
  have := congrArg (List.map (List.map List.length)) h
  simpa [List.map_map, Function.comp_def] using this.symm

theorem fits_fits {ls ks : List AnyLayer} {θ θ' : Theta} (h : ks.map AnyLayer.params = θ)
    (hf : FitsTheta ls θ) (hf' : FitsTheta ls θ') : FitsTheta ks θ' := by
  unfold FitsTheta at hf hf' ⊢
  rw [hf', ← hf, ← h, List.map_map]
  rfl

/-- The result of a task: a network with the layers `K` along the path. -/
structure TaskNet (g : DLGraph) (p : List Nat) (q : Nat) (ls : List AnyLayer) (f : LossFn) (nin m : Nat)
    (inv : ℝ) (N : Net) (K : List AnyLayer) : Prop where
  graph : N.graph = g
  length : N.layers.length = g.layers.length
  ready : Ready N p q K f nin m inv
  sized : ∀ l ∈ K, l.params.map List.length = l.kind.blockSizes
  shape : (K.map fun l => l.params.map List.length) = ls.map fun l => l.params.map List.length

/-- The blocks in memory. -/
def blocks (A : List (List Nat)) (h : Heap) : List (List (List ℝ)) := A.map (·.map h.block)

theorem view_update {m : Mod} {A : List (List Nat)} {h : Heap} (hA : addrs m.objs = A) {N : Net}
    (hl : N.layers.length = m.objs.length) : (m.update N).view h = withBlocks N (blocks A h) := by
  show (⟨N.graph, _⟩ : Net) = ⟨N.graph, _⟩
  congr 1
  rw [← hA]
  apply List.ext_getElem
  · simp [Mod.update, blocks, addrs, hl]
  · intro i h1 h2
    simp [Mod.update, blocks, addrs, Obj.view]

/-- Applying the optimizer to the result of one task. -/
theorem train_task {g : DLGraph} {p : List Nat} {q : Nat} {ls : List AnyLayer} {f : LossFn} {nin m : Nat}
    {inv : ℝ} (eta : ℝ) (hp : IsTrainingPath g p q) {A : List (List Nat)} {M : Mod} {h : Heap}
    (hI : Inv A ⟨h, [M]⟩) {θ : Theta} {ks : List AnyLayer}
    (hat : AtTheta g p q ls f nin m inv θ (M.view h) ks) {N : Net} {K : List AnyLayer}
    (hN : TaskNet g p q ls f nin m inv N K)
    (hw : (N.layers.map fun a => a.params.length) = (M.view h).layers.map fun a => a.params.length) :
    ∃ n' θ', ((M.update N).view h).train (Opt.gdStep eta) () = (((), n'), .ok ()) ∧
      Inv A ⟨h.store (M.update N).objs n'.layers, [M]⟩ ∧
      AtTheta g p q ls f nin m inv θ' (M.view (h.store (M.update N).objs n'.layers)) (withTheta ks θ') ∧
      ∀ (j : Nat) (l k : AnyLayer) (b i : Nat), ls[j]? = some l → K[j]? = some k → b < l.params.length →
        i < (l.params.getD b []).length →
        entry (θ'.getD j []) b i = entry (θ.getD j []) b i - eta * entry k.paramGrads b i := by
  have hAm : addrs M.objs = A := hI.same M (by simp)
  have hMl : (M.view h).layers.length = M.objs.length := by simp [Mod.view]
  have hNl : N.layers.length = M.objs.length := by
    rw [hN.length, ← hat.length, hMl]
  have hblk : (M.view h).layers.map AnyLayer.params = blocks A h := view_params hI (by simp)
  have hB1 : p.map (fun i => (blocks A h)[i]?) = θ.map some := by
    rw [← hblk, ← hat.params]
    have := congrArg (List.map (Option.map AnyLayer.params)) hat.ready.layers
    rw [List.map_map, List.map_map] at this
    simp only [List.getElem?_map, List.map_map]
    exact this
  have hB2 : (blocks A h)[q]? = some [] := by
    rw [← hblk, List.getElem?_map]
    obtain ⟨l, h1, _⟩ := hat.ready.loss
    rw [h1]
    rfl
  have hfit : FitsTheta K θ := by
    unfold FitsTheta
    rw [hN.shape]
    exact hat.fits
  have hcv := view_update (h := h) hAm hNl
  have hr := ready_withBlocks hN.ready hfit hB1 hB2
  have hlenB : (blocks A h).length = N.layers.length := by
    rw [← hblk, List.length_map, hMl, hNl]
  have hwl : (withBlocks N (blocks A h)).layers.length = N.layers.length := by
    simp [withBlocks, hlenB]
  have hwp : ∀ (j : Nat) (k : AnyLayer), K[j]? = some k →
      (withTheta K θ)[j]? = some (k.setParams (θ.getD j [])) ∧
      (k.setParams (θ.getD j [])).params = θ.getD j [] ∧
      (k.setParams (θ.getD j [])).paramGrads = k.paramGrads ∧
      (θ.getD j []).map List.length = k.params.map List.length := by
    intro j k hk
    obtain ⟨_, t2⟩ := fitsTheta_get hfit hk
    have t3 : (θ.getD j []).length = k.params.length := by simpa using congrArg List.length t2
    obtain ⟨a1, a2, _⟩ := params_setParams t3
    exact ⟨withTheta_get hfit hk, a1, a2, t2⟩
  have hsz : ∀ l ∈ withTheta K θ, l.params.map List.length = l.kind.blockSizes := by
    intro l hl
    obtain ⟨j, hj⟩ := List.mem_iff_getElem?.mp hl
    have hlt := (List.getElem?_eq_some_iff.mp hj).1
    rw [withTheta_length hfit] at hlt
    have hk : K[j]? = some K[j] := List.getElem?_eq_getElem hlt
    obtain ⟨a1, a2, _, a4⟩ := hwp j _ hk
    rw [a1] at hj
    cases hj
    rw [a2, kind_setParams, a4]
    exact hN.sized _ (List.getElem_mem hlt)
  obtain ⟨n', b1, b2, b3, b4⟩ := train_path eta (n := withBlocks N (blocks A h)) (by
      show IsTrainingPath N.graph p q
      rw [hN.graph]; exact hp)
    (by rw [hwl]; show N.layers.length = N.graph.layers.length; rw [hN.length, hN.graph]) hr hsz
  -- the memory
  have hu : addrs (M.update N).objs = A := by
    rw [← hAm]
    apply List.ext_getElem
    · simp [addrs, Mod.update, hNl]
    · intro i h1 h2
      simp [addrs, Mod.update]
  have hI2 : Inv A ⟨h, [M, M.update N]⟩ := by
    refine ⟨?_, hI.nodup, hI.lt, ?_⟩
    · intro m' hm'
      rcases List.mem_cons.mp hm' with rfl | hm'
      · exact hAm
      · obtain rfl := List.mem_singleton.mp hm'
        exact hu
    · intro m' hm' o ho
      rcases List.mem_cons.mp hm' with rfl | hm'
      · exact hI.count _ (by simp) o ho
      · obtain rfl := List.mem_singleton.mp hm'
        obtain ⟨i, hi, rfl⟩ := List.mem_iff_getElem.mp ho
        have h1 : i < M.objs.length := by simp [Mod.update] at hi; omega
        have h2 : i < N.layers.length := by omega
        have e := congrArg (fun z => z[i]?) hw
        simp only [List.getElem?_map, List.getElem?_eq_getElem h2, Mod.view,
          List.getElem?_eq_getElem h1, Option.map_some, Option.some.injEq] at e
        have c1 := hI.count M (by simp) M.objs[i] (List.getElem_mem h1)
        have e2 : (M.objs[i].view h).params.length = M.objs[i].addr.length := by
          unfold Obj.view
          rw [(params_setParams (by rw [List.length_map]; exact c1)).1, List.length_map]
        show (M.update N).objs[i].addr.length = _
        simp only [Mod.update, List.getElem_zipWith]
        rw [← e2, ← e]
  have hlen' : n'.layers.map (·.params.length)
      = ((M.update N).view h).layers.map (·.params.length) := by
    rw [hcv]
    have := trainLayers_length (Opt.gdStep eta) (withBlocks N (blocks A h)).layers ()
    have hb := b1
    unfold Net.train at hb
    rcases ht : trainLayers (Opt.gdStep eta) () (withBlocks N (blocks A h)).layers with ⟨⟨s', l'⟩, e⟩
    rw [ht] at hb this
    simp only [Prod.mk.injEq] at hb
    rw [← hb.1.2]
    exact this
  obtain ⟨c1, _, c3, c4, c5, _⟩ := put_world hI2 (k := 1) (m := M.update N) rfl (n' := n') hlen'
  have hheap : (World.put ⟨h, [M, M.update N]⟩ 1 (M.update N) n').heap
      = h.store (M.update N).objs n'.layers := rfl
  rw [hheap] at c3 c4 c5
  have hMv := c3 M (by simp)
  let θ' : Theta := ((withTheta K θ).map (gdLayer eta)).map AnyLayer.params
  -- one layer
  have key : ∀ (j : Nat) (l : AnyLayer), ls[j]? = some l → ∃ k, K[j]? = some k ∧
      θ'[j]? = some (θ'.getD j []) ∧ (θ'.getD j []).map List.length = l.params.map List.length ∧
      ∀ b i, b < l.params.length → i < (l.params.getD b []).length →
        entry (θ'.getD j []) b i = entry (θ.getD j []) b i - eta * entry k.paramGrads b i := by
    intro j l hj
    have hKl : K.length = ls.length := by simpa using congrArg List.length hN.shape
    have hjl := (List.getElem?_eq_some_iff.mp hj).1
    have hk : K[j]? = some (K[j]'(by omega)) := List.getElem?_eq_getElem (by omega)
    obtain ⟨a1, a2, a3, a4⟩ := hwp j _ hk
    obtain ⟨_, _, m1, m2⟩ := trainable_get hr.sizes _ (List.mem_of_getElem? a1)
    obtain ⟨_, _, _, _, ⟨Q, d5, d6, _⟩, d8⟩ := gdLayer_spec eta m1 m2 (hsz _ (List.mem_of_getElem? a1))
    have hθ' : θ'[j]? = some (gdLayer eta ((K[j]'(by omega)).setParams (θ.getD j []))).params := by
      show (((withTheta K θ).map (gdLayer eta)).map AnyLayer.params)[j]? = _
      rw [List.getElem?_map, List.getElem?_map, a1]
      rfl
    have hg' : θ'.getD j [] = (gdLayer eta ((K[j]'(by omega)).setParams (θ.getD j []))).params := by
      rw [List.getD_eq_getElem?_getD, hθ']
      rfl
    have hsh : (K[j]'(by omega)).params.map List.length = l.params.map List.length := by
      have := congrArg (fun z => z[j]?) hN.shape
      simpa [hk, hj] using this
    refine ⟨_, hk, by rw [hg']; exact hθ', by rw [hg', d6, d5, a2, a4, hsh], ?_⟩
    intro b i hb hi
    obtain ⟨t1, t2⟩ := fitsTheta_get hat.fits hj
    have hbl : b < (θ.getD j []).length := by
      have : (θ.getD j []).length = l.params.length := by simpa using congrArg List.length t2
      omega
    have hil : i < ((θ.getD j []).getD b []).length := by
      have := congrArg (fun z => z[b]?) t2
      simp only [List.getElem?_map, List.getElem?_eq_getElem hbl, List.getElem?_eq_getElem hb,
        Option.map_some, Option.some.injEq] at this
      rw [List.getD_eq_getElem?_getD, List.getElem?_eq_getElem hb] at hi
      rw [List.getD_eq_getElem?_getD, List.getElem?_eq_getElem hbl]
      simp only [Option.getD_some] at hi ⊢
      omega
    have := (d8 b i (by rw [a2]; exact hbl) (by rw [a2]; exact hil)).1
    rw [hg', this, a2, a3]
  have hKl : K.length = ls.length := by simpa using congrArg List.length hN.shape
  have hfit' : FitsTheta ls θ' := by
    unfold FitsTheta
    apply List.ext_getElem?
    intro j
    simp only [List.getElem?_map]
    by_cases hj : j < ls.length
    · obtain ⟨k, _, e1, e2, _⟩ := key j ls[j] (List.getElem?_eq_getElem hj)
      rw [e1, List.getElem?_eq_getElem hj]
      simp only [Option.map_some, e2]
    · rw [List.getElem?_eq_none (by simp [θ', withTheta_length hfit]; omega), List.getElem?_eq_none (by omega)]
      rfl
  have hfk : FitsTheta ks θ' := fits_fits hat.params hat.fits hfit'
  have hMv' : M.view (h.store (M.update N).objs n'.layers)
      = withBlocks (M.view h) (n'.layers.map AnyLayer.params) := by
    rw [hMv]
    unfold withBlocks
    congr 1
    rw [List.zipWith_map_right]
  have hP1 : p.map (fun i => (n'.layers.map AnyLayer.params)[i]?) = θ'.map some := by
    have := congrArg (List.map (Option.map AnyLayer.params)) b4.layers
    rw [List.map_map, List.map_map] at this
    simp only [List.getElem?_map, θ', List.map_map] at this ⊢
    exact this
  have hP2 : (n'.layers.map AnyLayer.params)[q]? = some [] := by
    rw [List.getElem?_map]
    obtain ⟨l, h1, _⟩ := b4.loss
    rw [h1]
    rfl
  have hready := ready_withBlocks hat.ready hfk hP1 hP2
  refine ⟨n', θ', by rw [hcv]; exact b1, ?_, ⟨?_, ?_, ?_, ⟨?_, ?_⟩, hfit', ?_⟩, ?_⟩
  · refine ⟨?_, hI.nodup, ?_, ?_⟩
    · intro m' hm'
      obtain rfl := List.mem_singleton.mp hm'
      exact hAm
    · intro a ha
      show a < (h.store (M.update N).objs n'.layers).length
      rw [c4]
      exact hI.lt a ha
    · intro m' hm'
      exact hI.count m' hm'
  · rw [hMv']; exact hat.graph
  · rw [hMv']
    show (List.zipWith AnyLayer.setParams (M.view h).layers (n'.layers.map AnyLayer.params)).length = _
    rw [List.length_zipWith, List.length_map, b3, hwl, hNl, hMl, Nat.min_self, ← hMl, hat.length]
  · rw [hMv']; exact hready
  · intro l hl
    obtain ⟨j, hj⟩ := List.mem_iff_getElem?.mp hl
    have hlt := (List.getElem?_eq_some_iff.mp hj).1
    rw [withTheta_length hfk] at hlt
    have hk : ks[j]? = some ks[j] := List.getElem?_eq_getElem hlt
    obtain ⟨_, t2⟩ := fitsTheta_get hfk hk
    rw [withTheta_get hfk hk] at hj
    cases hj
    rw [(params_setParams (by simpa using congrArg List.length t2)).1, kind_setParams, t2]
    exact hat.clean.sized _ (List.getElem_mem hlt)
  · intro l hl b i hb hi
    obtain ⟨j, hj⟩ := List.mem_iff_getElem?.mp hl
    have hlt := (List.getElem?_eq_some_iff.mp hj).1
    rw [withTheta_length hfk] at hlt
    have hk : ks[j]? = some ks[j] := List.getElem?_eq_getElem hlt
    obtain ⟨_, t2⟩ := fitsTheta_get hfk hk
    rw [withTheta_get hfk hk] at hj
    cases hj
    have t3 : (θ'.getD j []).length = ks[j].params.length := by simpa using congrArg List.length t2
    obtain ⟨a1, a2, _⟩ := params_setParams t3
    rw [a1] at hb hi
    rw [a2]
    refine hat.clean.zero _ (List.getElem_mem hlt) b i (by omega) ?_
    have hb' : b < ks[j].params.length := by omega
    have := congrArg (fun z => z[b]?) t2
    simp only [List.getElem?_map, List.getElem?_eq_getElem hb, List.getElem?_eq_getElem hb',
      Option.map_some, Option.some.injEq] at this
    rw [List.getD_eq_getElem?_getD, List.getElem?_eq_getElem hb] at hi
    rw [List.getD_eq_getElem?_getD, List.getElem?_eq_getElem hb']
    simp only [Option.getD_some] at hi ⊢
    omega
  · have e1 : ks.length = ls.length := by
      rw [length_of_core hat.core, withTheta_length hat.fits]
    apply List.ext_getElem?
    intro j
    rw [List.getElem?_map, List.getElem?_map]
    by_cases hj : j < ls.length
    · have hl : ls[j]? = some ls[j] := List.getElem?_eq_getElem hj
      have hk : ks[j]? = some (ks[j]'(by omega)) := List.getElem?_eq_getElem (by omega)
      rw [withTheta_get hfk hk, withTheta_get hfit' hl]
      have hc := core_get hat.core (withTheta_get hat.fits hl) hk
      obtain ⟨_, t2⟩ := fitsTheta_get hat.fits hl
      obtain ⟨_, t2'⟩ := fitsTheta_get hfit' hl
      simp only [Option.map_some]
      rw [core_setParams hc, setParams_setParams (by simpa using congrArg List.length t2)
        (by simpa using congrArg List.length t2')]
    · rw [List.getElem?_eq_none (by rw [withTheta_length hfk]; omega),
        List.getElem?_eq_none (by rw [withTheta_length hfit']; omega)]
  · intro j l k b i hj hk hb hi
    obtain ⟨k', e1, _, _, e4⟩ := key j l hj
    rw [hk] at e1
    cases e1
    exact e4 b i hb hi

/-- An accumulated gradient of the layer at position `j`. -/
def gradAt (K : List AnyLayer) (j b i : Nat) : ℝ :=
  match K[j]? with
  | some k => entry k.paramGrads b i
  | none => 0

/-- The calls of `train` in a round. -/
theorem train_events {g : DLGraph} {p : List Nat} {q : Nat} {ls : List AnyLayer} {f : LossFn} {nin m : Nat}
    {inv : ℝ} (eta : ℝ) (hp : IsTrainingPath g p q) {A : List (List Nat)} {M : Mod} (d : Data.Dataset ℝ)
    (tasks : List (List Nat)) (res : Nat → Option (Mod × Option String)) (N : Nat → Net)
    (K : Nat → List AnyLayer) : ∀ (us : List Nat),
    (∀ u ∈ us, res u = some (M.update (N u), none) ∧ TaskNet g p q ls f nin m inv (N u) (K u) ∧
      (N u).layers.map (fun a => a.params.length) = A.map List.length) →
    ∀ (h : Heap) (θ : Theta) (ks : List AnyLayer), Inv A ⟨h, [M]⟩ →
    AtTheta g p q ls f nin m inv θ (M.view h) ks →
    ∃ h' θ' ks', Round.events (Opt.gdStep eta) d M tasks ⟨(), h, res⟩ (us.map .train) = .ok ⟨(), h', res⟩ ∧
      Inv A ⟨h', [M]⟩ ∧ AtTheta g p q ls f nin m inv θ' (M.view h') ks' ∧
      ∀ (j : Nat) (l : AnyLayer) (b i : Nat), ls[j]? = some l → b < l.params.length →
        i < (l.params.getD b []).length →
        entry (θ'.getD j []) b i
          = entry (θ.getD j []) b i - eta * (us.map fun u => gradAt (K u) j b i).sum := by
  intro us
  induction us with
  | nil =>
    intro _ h θ ks hI hat
    exact ⟨h, θ, ks, rfl, hI, hat, by intros; simp⟩
  | cons u us ih =>
    intro hu h θ ks hI hat
    obtain ⟨u1, u2, u3⟩ := hu u (by simp)
    have hw : (N u).layers.map (fun a => a.params.length) = (M.view h).layers.map fun a => a.params.length := by
      rw [u3]
      have := congrArg (List.map List.length) (view_params hI (m := M) (by simp))
      simpa [List.map_map, Function.comp_def] using this.symm
    obtain ⟨n', θ1, a1, a2, a3, a4⟩ := train_task eta hp hI hat u2 hw
    obtain ⟨h', θ', ks', b1, b2, b3, b4⟩ := ih (fun v hv => hu v (by simp [hv])) _ θ1 _ a2 a3
    refine ⟨h', θ', ks', ?_, b2, b3, ?_⟩
    · show (Round.event (Opt.gdStep eta) d M tasks ⟨(), h, res⟩ (.train u) >>= _) = _
      have e : Round.event (Opt.gdStep eta) d M tasks ⟨(), h, res⟩ (.train u)
          = .ok ⟨(), h.store (M.update (N u)).objs n'.layers, res⟩ := by
        unfold Round.event
        simp only [u1, a1]
        rfl
      rw [e, Exec.bind_ok]
      exact b1
    · intro j l b i hj hb hi
      have hKl : (K u).length = ls.length := by simpa using congrArg List.length u2.shape
      have hjl := (List.getElem?_eq_some_iff.mp hj).1
      have hk : (K u)[j]? = some ((K u)[j]'(by omega)) := List.getElem?_eq_getElem (by omega)
      have e1 := a4 j l _ b i hj hk hb hi
      rw [b4 j l b i hj hb hi, e1, List.map_cons, List.sum_cons]
      have e2 : gradAt (K u) j b i = entry ((K u)[j]'(by omega)).paramGrads b i := by
        unfold gradAt
        rw [hk]
      rw [e2]
      ring

theorem steps_each (d : Data.Dataset ℝ) (s : Nat → List ℝ × List ℝ) : ∀ (is : List Nat) (n : Net),
    (∀ i ∈ is, d.input i = .ok (s i).1 ∧ d.label i = .ok (s i).2) →
    steps d is n = each (fun n s => n.step s.1 s.2) (is.map s) n := by
  intro is
  induction is with
  | nil => intro n _; rfl
  | cons i is ih =>
    intro n hd
    obtain ⟨d1, d2⟩ := hd i (by simp)
    unfold steps
    rw [d1, Exec.bind_ok, d2, Exec.bind_ok, List.map_cons]
    unfold each
    cases hst : n.step (s i).1 (s i).2 with
    | throw m => rfl
    | ub => rfl
    | ok r =>
      simp only [Exec.bind_ok]
      obtain ⟨r1, r2⟩ := r
      cases r2 with
      | none => exact ih r1 fun i hi => hd i (by simp [hi])
      | some m => rfl

theorem hasDerivAt_list {ι : Type} {F : ι → ℝ → ℝ} {D : ι → ℝ} {x : ℝ} : ∀ (us : List ι),
    (∀ u ∈ us, HasDerivAt (F u) (D u) x) → HasDerivAt (fun v => (us.map fun u => F u v).sum) (us.map D).sum x := by
  intro us
  induction us with
  | nil => intro _; simpa using hasDerivAt_const x (0 : ℝ)
  | cons u us ih =>
    intro h
    simp only [List.map_cons, List.sum_cons]
    exact (h u (by simp)).add (ih fun v hv => h v (by simp [hv]))

theorem cost_flatten (f : LossFn) (m : Nat) (inv : ℝ) (s : Nat → List ℝ × List ℝ) (ls : List AnyLayer) :
    ∀ (tasks : List (List Nat)), cost f m inv (tasks.flatten.map s) ls
      = ((List.range tasks.length).map fun t => cost f m inv ((tasks.getD t []).map s) ls).sum := by
  have key : ∀ (tasks : List (List Nat)), cost f m inv (tasks.flatten.map s) ls
      = (tasks.map fun t => cost f m inv (t.map s) ls).sum := by
    intro tasks
    induction tasks with
    | nil => rfl
    | cons t ts ih =>
      rw [List.map_cons, List.sum_cons, ← ih]
      unfold cost
      simp
  intro tasks
  rw [key]
  congr 1
  apply List.ext_getElem
  · simp
  · intro i h1 h2
    have : i < tasks.length := by simpa using h1
    simp [this]

/-- A round in which all tasks finish before the first result is applied is one step of gradient descent
on the samples of its tasks. -/
theorem round_path {g : DLGraph} {p : List Nat} {q : Nat} {ls : List AnyLayer} {f : LossFn} {nin m : Nat}
    {inv : ℝ} (eta : ℝ) (hok : Ok g) (hl : Lists g) (hp : IsTrainingPath g p q) (hne : p ≠ [])
    (ht : Trainable nin m ls) {A : List (List Nat)} {M : Mod} {h : Heap} {θ : Theta} {ks : List AnyLayer}
    (hI : Inv A ⟨h, [M]⟩) (hat : AtTheta g p q ls f nin m inv θ (M.view h) ks) (d : Data.Dataset ℝ)
    (s : Nat → List ℝ × List ℝ) (tasks : List (List Nat))
    (hd : ∀ is ∈ tasks, ∀ i ∈ is, d.input i = .ok (s i).1 ∧ d.label i = .ok (s i).2)
    (hs : ∀ is ∈ tasks, ∀ i ∈ is, GoodSample (withTheta ls θ) f nin m (s i).1 (s i).2)
    (es : List Event) (he : Execution tasks.length ⟨[], 0⟩ es) (hb : Barrier es) :
    ∃ r θ' ks', Round.events (Opt.gdStep eta) d M tasks ⟨(), h, fun _ => none⟩ es = .ok r ∧
      Inv A ⟨r.heap, [M]⟩ ∧ AtTheta g p q ls f nin m inv θ' (M.view r.heap) ks' ∧
      GdStep ls eta (fun θ => cost f m inv (tasks.flatten.map s) (withTheta ls θ)) θ θ' := by
  obtain ⟨ts, hperm, rfl⟩ := Props.barrier_shape he hb
  have htθ := trainable_withTheta ht hat.fits
  have hex : ∀ t, ∃ N K, t < tasks.length →
      Props.taskResult d M tasks h t = .ok (M.update N, none) ∧
      TaskNet g p q ls f nin m inv N K ∧
      N.layers.map (fun a => a.params.length) = A.map List.length ∧
      ∀ (j : Nat) (l : AnyLayer), ls[j]? = some l → ∀ b i, Learned l b → b < l.params.length →
        i < (l.params.getD b []).length →
        HasDerivAt (fun v => cost f m inv ((tasks.getD t []).map s) (withTheta ls (setTheta θ j b i v)))
          (gradAt K j b i) (entry (θ.getD j []) b i) := by
    intro t
    by_cases htl : t < tasks.length
    swap
    · exact ⟨M.view h, [], fun h => absurd h htl⟩
    have hmem : tasks[t] ∈ tasks := List.getElem_mem htl
    obtain ⟨N, K, a1, a2, a3, a4, a5, a6⟩ := steps_path hok hl hp hne htθ (tasks[t].map s) (M.view h) ks
      hat.graph hat.ready hat.core (by
        intro x hx
        obtain ⟨i, hi, rfl⟩ := List.mem_map.mp hx
        exact (hs _ hmem i hi).toFitSample)
    have hcore : K.map core = ks.map core := a4.trans hat.core.symm
    have hlen := each_step_length _ a1
    have hst := steps_each d s tasks[t] (M.view h) (hd _ hmem)
    rw [a1] at hst
    refine ⟨N, K, fun _ => ⟨?_, ⟨a2, hlen.trans hat.length, a3, ?_, ?_⟩, ?_, ?_⟩⟩
    · unfold Props.taskResult rd
      rw [List.getElem?_eq_getElem htl]
      simp only [Exec.bind_ok, hst]
      rfl
    · intro l hl'
      obtain ⟨j, hj⟩ := List.mem_iff_getElem?.mp hl'
      have hlt := (List.getElem?_eq_some_iff.mp hj).1
      have hlt' : j < ks.length := by rw [← length_of_core hcore]; exact hlt
      have hk : ks[j]? = some ks[j] := List.getElem?_eq_getElem hlt'
      have hc := core_get hcore hk hj
      rw [params_of_core hc, kind_of_core hc]
      exact hat.clean.sized _ (List.getElem_mem hlt')
    · have e1 : K.map AnyLayer.params = θ := by
        rw [← hat.params]
        apply List.ext_getElem?
        intro j
        rw [List.getElem?_map, List.getElem?_map]
        have hl1 := length_of_core hcore
        by_cases hj : j < K.length
        · have hk : ks[j]? = some (ks[j]'(by omega)) := List.getElem?_eq_getElem (by omega)
          have hK : K[j]? = some K[j] := List.getElem?_eq_getElem hj
          rw [hk, hK]
          simp only [Option.map_some]
          rw [params_of_core (core_get hcore hk hK)]
        · rw [List.getElem?_eq_none (by omega), List.getElem?_eq_none (by omega)]
      have := hat.fits
      unfold FitsTheta at this
      rw [← e1, List.map_map] at this
      exact this
    · have hw := Props.steps_params d tasks[t] hst
      have h1 := congrArg (List.map List.length) hw
      have h2 := congrArg (List.map List.length) (view_params hI (m := M) (by simp))
      unfold Props.weightsOf at h1
      rw [h2] at h1
      simpa [List.map_map, Function.comp_def] using h1
    · intro j l hj b i hlb hb' hi
      obtain ⟨t1, t2⟩ := fitsTheta_get hat.fits hj
      have tlen : (θ.getD j []).length = l.params.length := by simpa using congrArg List.length t2
      have hw := withTheta_get hat.fits hj
      have hjlt := (List.getElem?_eq_some_iff.mp hj).1
      have hkl : ks.length = ls.length := by rw [length_of_core hat.core, withTheta_length hat.fits]
      have hk : ks[j]? = some (ks[j]'(by omega)) := List.getElem?_eq_getElem (by omega)
      obtain ⟨l1, c1, c2⟩ := a6 j _ _ hk hw
      have hck : core (ks[j]'(by omega)) = core (l.setParams (θ.getD j [])) := core_get hat.core hw hk
      have hpk : (ks[j]'(by omega)).params = θ.getD j [] := by
        rw [params_of_core hck, (params_setParams tlen).1]
      have hbk : b < (θ.getD j []).length ∧ i < ((θ.getD j []).getD b []).length := by
        have hbl : b < (θ.getD j []).length := by omega
        refine ⟨hbl, ?_⟩
        have := congrArg (fun z => z[b]?) t2
        simp only [List.getElem?_map, List.getElem?_eq_getElem hbl, List.getElem?_eq_getElem hb',
          Option.map_some, Option.some.injEq] at this
        rw [List.getD_eq_getElem?_getD, List.getElem?_eq_getElem hb'] at hi
        rw [List.getD_eq_getElem?_getD, List.getElem?_eq_getElem hbl]
        simp only [Option.getD_some] at hi ⊢
        omega
      have e3 := c2 b i ((learned_setParams l _ b).mpr hlb) (by rw [(params_setParams tlen).1]; exact hbk.1)
        (by rw [(params_setParams tlen).1]; exact hbk.2) (by
          intro x hx
          obtain ⟨i', hi', rfl⟩ := List.mem_map.mp hx
          refine (hs _ hmem i' hi').smooth j _ hw ?_
          rw [(params_setParams tlen).1]
          intro h0
          rw [h0] at hbk
          simp at hbk)
      rw [(params_setParams tlen).1] at e3
      have hz := hat.clean.zero _ (List.getElem_mem (by omega : j < ks.length)) b i (by rw [hpk]; exact hbk.1)
        (by rw [hpk]; exact hbk.2)
      rw [hz, sub_zero] at e3
      have hfun : (fun v => cost f m inv (tasks[t].map s)
            ((withTheta ls θ).set j (withParam (l.setParams (θ.getD j [])) b i v)))
          = fun v => cost f m inv ((tasks.getD t []).map s) (withTheta ls (setTheta θ j b i v)) := by
        funext v
        rw [withTheta_set hat.fits hj, List.getD_eq_getElem?_getD (l := tasks), List.getElem?_eq_getElem htl]
        rfl
      have hga : gradAt K j b i = entry l1.paramGrads b i := by unfold gradAt; rw [c1]
      rw [← hfun, hga]
      exact e3
  choose N K hNK using hex
  have hmem : ∀ t, t ∈ ts ↔ t < tasks.length := fun t => by rw [hperm.mem_iff, List.mem_range]
  obtain ⟨e1, _⟩ := Props.events_tasks (Opt.gdStep eta) d M tasks h hI () ts (fun _ => none)
  have e1 := e1 (by
    intro t htt
    rw [(hNK t ((hmem t).mp htt)).1]
    intro e; cases e)
  obtain ⟨h', θ', ks', b1, b2, b3, b4⟩ := train_events eta hp d tasks
    (fun u => if u ∈ ts then (match Props.taskResult d M tasks h u with | .ok q => some q | _ => none)
        else none) N K (List.range tasks.length) (by
      intro u hu
      have hul : u < tasks.length := List.mem_range.mp hu
      obtain ⟨c1, c2, c3, _⟩ := hNK u hul
      refine ⟨?_, c2, c3⟩
      rw [if_pos ((hmem u).mpr hul), c1]) h θ ks hI hat
  have hev := Props.events_append (Opt.gdStep eta) d M tasks (ts.map .task)
    ((List.range tasks.length).map .train) ⟨(), h, fun _ => none⟩
  rw [e1, Exec.bind_ok] at hev
  refine ⟨_, θ', ks', hev.trans b1, b2, b3, b3.fits, ?_⟩
  · intro j l b i hj hlb hb' hi
    refine ⟨((List.range tasks.length).map fun u => gradAt (K u) j b i).sum, ?_, b4 j l b i hj hb' hi⟩
    have := hasDerivAt_list (F := fun t v => cost f m inv ((tasks.getD t []).map s)
        (withTheta ls (setTheta θ j b i v))) (D := fun u => gradAt (K u) j b i)
      (x := entry (θ.getD j []) b i) (List.range tasks.length)
      (fun t htt => (hNK t (List.mem_range.mp htt)).2.2.2 j l hj b i hlb hb' hi)
    simp only [cost_flatten]
    exact this

end

end Verif.Net

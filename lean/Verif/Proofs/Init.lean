import Verif.Spec.Init
import Verif.Proofs.GraphOps
import Verif.Proofs.NetLayer

/-! Initialisation of parameters. -/

namespace Verif.Init

open Verif.Net Verif.Graph Verif.Spec

noncomputable section

theorem fill_length {σ : Type} (d : σ → ℝ × σ) : ∀ (ws : List ℝ) (s : σ), (fill d ws s).1.length = ws.length
  | [], _ => rfl
  | _ :: ws, s => by
    unfold fill
    simp only [List.length_cons]
    rw [fill_length d ws]

theorem fill_get {σ : Type} (d : σ → ℝ × σ) : ∀ (ws : List ℝ) (s : σ) (k : Nat), k < ws.length →
    (fill d ws s).1[k]? = some (nth d s k)
  | [], _, _, h => by simp at h
  | _ :: ws, s, 0, _ => rfl
  | _ :: ws, s, k + 1, h => by
    unfold fill nth
    dsimp only
    rw [List.getElem?_cons_succ]
    exact fill_get d ws _ k (by simpa using h)

theorem fill_after {σ : Type} (d : σ → ℝ × σ) : ∀ (ws : List ℝ) (s : σ), (fill d ws s).2 = after d s ws.length
  | [], _ => rfl
  | _ :: ws, s => by
    unfold fill
    rw [List.length_cons]
    exact fill_after d ws _

theorem fill_congr {σ : Type} (d : σ → ℝ × σ) {ws vs : List ℝ} (h : ws.length = vs.length) (s : σ) :
    fill d ws s = fill d vs s := by
  apply Prod.ext
  · apply List.ext_getElem?
    intro k
    by_cases hk : k < ws.length
    · rw [fill_get d ws s k hk, fill_get d vs s k (by omega)]
    · rw [List.getElem?_eq_none (by rw [fill_length]; omega), List.getElem?_eq_none (by rw [fill_length]; omega)]
  · rw [fill_after, fill_after, h]

theorem setAll_eq (v : ℝ) (bs : List ℝ) : setAll v bs = List.replicate bs.length v := by
  unfold setAll
  induction bs with
  | nil => rfl
  | cons b bs ih => simp [List.replicate_succ, ih]

theorem nth_uniform (rg : Random) (delta : ℝ) : ∀ (k : Nat) (s : rg.Spare × rg.Engine),
    nth (uniformDraw rg 0 delta) s k = ((raw rg s.2 k : ℝ) / rg.maxRand * 2 - 1) * (delta / 2)
  | 0, s => by
    show ((((rg.next s.2).1 : ℕ) : ℝ) / rg.maxRand * 2 - 1) * (delta / 2) + 0 = _
    rw [add_zero]
    rfl
  | k + 1, s => by
    unfold nth raw
    rw [nth_uniform rg delta k]
    rfl

/-- `after` of uniform draws moves the engine only. -/
theorem raw_after (rg : Random) (delta : ℝ) : ∀ (j : Nat) (s : rg.Spare × rg.Engine) (k : Nat),
    raw rg (after (uniformDraw rg 0 delta) s j).2 k = raw rg s.2 (j + k)
  | 0, s, k => by rw [Nat.zero_add]; rfl
  | j + 1, s, k => by
    rw [show j + 1 + k = (j + k) + 1 by omega]
    unfold after
    rw [raw_after rg delta j]
    rfl

theorem isRelu_init (rg : Random) (f : InitFn) (pdf : Pdf) (rne : rg.Engine) (l : AnyLayer) :
    isRelu (initLayer rg f pdf rne l) = isRelu l := by
  cases l <;> rfl

theorem anyRelu_ok {ls : List AnyLayer} : ∀ {is : List Nat}, (∀ j ∈ is, j < ls.length) →
    anyRelu ls is = .ok (is.any fun j => (ls[j]?.map isRelu).getD false)
  | [], _ => rfl
  | j :: is, h => by
    have hj : j < ls.length := h j (by simp)
    unfold anyRelu
    rw [rd_ok hj, Exec.bind_ok, List.any_cons, List.getElem?_eq_getElem hj]
    cases hr : isRelu ls[j] with
    | true => simp [hr]
    | false =>
      simp only [hr, Bool.false_eq_true, if_false, Option.map_some, Option.getD_some, Bool.false_or]
      exact anyRelu_ok fun i hi => h i (by simp [hi])

/-- The rule that `choose` picks. -/
def rule (g : DLGraph) (ls : List AnyLayer) (init : ModelInit) (i : Nat) : InitFn :=
  match init with
  | .kaiming => .kaiming
  | .xavier => .xavier
  | .auto => if (successors g.forward i).any fun j => (ls[j]?.map isRelu).getD false then .kaiming else .xavier

theorem choose_ok {g : DLGraph} {ls : List AnyLayer} (h : ∀ i, ∀ j ∈ successors g.forward i, j < ls.length)
    (init : ModelInit) (i : Nat) : choose g ls init i = .ok (rule g ls init i) := by
  cases init with
  | kaiming => rfl
  | xavier => rfl
  | auto =>
    unfold choose
    dsimp only
    rw [anyRelu_ok (h i), Exec.bind_ok]
    rfl

theorem rule_congr {g : DLGraph} {ls ks : List AnyLayer} (h : ∀ j : Nat, ls[j]?.map isRelu = ks[j]?.map isRelu)
    (init : ModelInit) (i : Nat) : rule g ls init i = rule g ks init i := by
  unfold rule
  simp only [h]

theorem relu_set {ls : List AnyLayer} {i : Nat} {l : AnyLayer} (hi : ls[i]? = some l) {l' : AnyLayer}
    (he : isRelu l' = isRelu l) : ∀ j : Nat, (ls.set i l')[j]?.map isRelu = ls[j]?.map isRelu := by
  intro j
  rw [List.getElem?_set]
  split
  · rename_i hij
    subst hij
    rw [hi]
    have := (List.getElem?_eq_some_iff.mp hi).1
    simp [this, he]
  · rfl

/-- What the loop does. -/
theorem initEach_spec (rg : Random) (g : DLGraph) (init : ModelInit) (pdf : Pdf) (rne : rg.Engine) :
    ∀ (is : List Nat) (ls : List AnyLayer), is.Nodup → (∀ i ∈ is, i < ls.length) →
      (∀ i, ∀ j ∈ successors g.forward i, j < ls.length) →
      ∃ ls', initEach rg g init pdf rne is ls = .ok ls' ∧ ls'.length = ls.length ∧
        ∀ i, ls'[i]? = if i ∈ is then ls[i]?.map (initLayer rg (rule g ls init i) pdf rne) else ls[i]?
  | [], ls, _, _, _ => ⟨ls, rfl, rfl, by simp⟩
  | i :: is, ls, hn, hr, hs => by
    have hi : i < ls.length := hr i (by simp)
    obtain ⟨hni, hn⟩ := List.nodup_cons.mp hn
    unfold initEach
    rw [rd_ok hi, Exec.bind_ok, choose_ok hs, Exec.bind_ok]
    have hset := relu_set (List.getElem?_eq_getElem hi) (isRelu_init rg (rule g ls init i) pdf rne ls[i])
    obtain ⟨ls', h1, h2, h3⟩ := initEach_spec rg g init pdf rne is
      (ls.set i (initLayer rg (rule g ls init i) pdf rne ls[i])) hn
      (fun j hj => by rw [List.length_set]; exact hr j (by simp [hj]))
      (fun k j hj => by rw [List.length_set]; exact hs k j hj)
    refine ⟨ls', h1, by rw [h2, List.length_set], ?_⟩
    intro j
    rw [h3 j, rule_congr hset, List.getElem?_set]
    by_cases hij : i = j
    · subst hij
      simp [hni, hi]
    · have : j ≠ i := fun h => hij h.symm
      simp [hij, this]

/-- The graph of the network was built by operations, and there is one layer object per node. -/
structure Sound (n : Net) : Prop where
  layers : n.layers.length = n.graph.layers.length
  arcs : ∀ i, ∀ j ∈ successors n.graph.forward i, j < n.graph.layers.length

theorem sound_of_built {ops : List Op} {n : Net} (hg : n.graph = (Model.empty.run ops).graph)
    (hl : n.layers.length = n.graph.layers.length) : Sound n :=
  ⟨hl, fun i j hj => by rw [hg] at hj ⊢; exact ((mok_run ops mok_empty).ok.forwardRange i j hj).2⟩

theorem init_spec (rg : Random) {n : Net} (hn : Sound n) (init : ModelInit) (pdf : Pdf) (device seed : Nat) :
    ∃ ls', Init.init rg init pdf device seed n = .ok (⟨n.graph, ls'⟩, if seed = 0 then device else seed) ∧
      ls'.length = n.layers.length ∧
      ∀ i, ls'[i]? = if i ∈ n.graph.loss then n.layers[i]? else
        n.layers[i]?.map (initLayer rg (rule n.graph n.layers init i) pdf
          (rg.seeded (if seed = 0 then device else seed))) := by
  have hm : ∀ i, i ∈ n.graph.forwardLayersIdx ↔ i < n.layers.length ∧ i ∉ n.graph.loss := by
    intro i
    unfold DLGraph.forwardLayersIdx
    rw [List.mem_filter, List.mem_range, hn.layers]
    simp
  obtain ⟨ls', h1, h2, h3⟩ := initEach_spec rg n.graph init pdf (rg.seeded (if seed = 0 then device else seed))
    n.graph.forwardLayersIdx n.layers (List.Nodup.filter _ List.nodup_range) (fun i hi => ((hm i).mp hi).1)
    (fun i j hj => by rw [hn.layers]; exact hn.arcs i j hj)
  refine ⟨ls', ?_, h2, ?_⟩
  · unfold Init.init
    dsimp only
    rw [h1, Exec.bind_ok]
  · intro i
    rw [h3 i]
    by_cases hl : i ∈ n.graph.loss
    · rw [if_neg (fun h => ((hm i).mp h).2 hl), if_pos hl]
    · rw [if_neg hl]
      by_cases hi : i < n.layers.length
      · rw [if_pos ((hm i).mpr ⟨hi, hl⟩)]
      · rw [if_neg (fun h => hi ((hm i).mp h).1), List.getElem?_eq_none (by omega)]
        rfl

/-! ### The rule, in words -/

theorem any_relu_iff (g : DLGraph) (ls : List AnyLayer) (i : Nat) :
    ((successors g.forward i).any fun j => (ls[j]?.map isRelu).getD false) = true ↔ FollowedByRelu g ls i := by
  rw [List.any_eq_true]
  unfold FollowedByRelu
  constructor
  · rintro ⟨j, hj, h⟩
    refine ⟨j, hj, ?_⟩
    cases hl : ls[j]? with
    | none => rw [hl] at h; simp at h
    | some l =>
      rw [hl] at h
      unfold isRelu at h
      simp only [Option.map_some, Option.getD_some] at h
      split at h
      · exact ⟨_, rfl⟩
      · cases h
  · rintro ⟨j, hj, l, hl⟩
    exact ⟨j, hj, by rw [hl]; rfl⟩

theorem variance_rule (g : DLGraph) (ls : List AnyLayer) (init : ModelInit) (i n : Nat) :
    variance (rule g ls init i) n = spread g ls init i n := by
  unfold spread rule UsesKaiming
  cases init with
  | kaiming => rw [if_pos (Or.inl rfl)]; rfl
  | xavier =>
    dsimp only
    rw [if_neg (show ¬ (ModelInit.xavier = .kaiming ∨ ModelInit.xavier = .auto ∧ FollowedByRelu g ls i) by simp)]
    rfl
  | auto =>
    dsimp only
    by_cases h : FollowedByRelu g ls i
    · rw [if_pos ((any_relu_iff g ls i).mpr h), if_pos (Or.inr ⟨rfl, h⟩)]
      rfl
    · rw [if_neg (fun h' => h ((any_relu_iff g ls i).mp h')), if_neg (by simp [h])]
      rfl

/-- The values of the weights of a dense or convolutional layer. -/
theorem draw_nth (rg : Random) (f : InitFn) (pdf : Pdf) (n k : Nat) (e : rg.Engine) :
    nth (draw rg f pdf n) (rg.noSpare, e) k =
      match pdf with
      | .uniform => ((raw rg e k : ℝ) / rg.maxRand * 2 - 1) * (variance f n / 2)
      | .normal => nth (rg.normal 0 (variance f n)) (rg.noSpare, e) k := by
  cases pdf with
  | uniform => exact nth_uniform rg _ k _
  | normal => rfl

theorem alike_relu {a b : AnyLayer} (h : Alike a b) : isRelu a = isRelu b := by
  unfold Alike at h
  split at h
  all_goals first
    | rfl
    | exact h.elim
    | skip
  · rename_i f l f' l' _
    obtain ⟨h1, h2⟩ := h
    have hf : ∀ {f : ActFn} (l : Act.Layer), f ≠ .relu → isRelu (.act f l) = false := by
      intro f l h
      cases f <;> first | rfl | exact absurd rfl h
    rw [hf l h1, hf l' h2]

theorem alike_params (rg : Random) (f : InitFn) (pdf : Pdf) (e : rg.Engine) {a b : AnyLayer} (h : Alike a b) :
    (initLayer rg f pdf e a).params = (initLayer rg f pdf e b).params := by
  unfold Alike at h
  split at h
  · obtain ⟨h1, h2, h3⟩ := h
    unfold initLayer AnyLayer.params
    dsimp only
    rw [h1, fill_congr _ h2, setAll_eq, setAll_eq, h3]
  · obtain ⟨h1, h2, h3⟩ := h
    unfold initLayer AnyLayer.params
    dsimp only
    rw [h1, fill_congr _ h2, setAll_eq, setAll_eq, h3]
  · obtain ⟨h1, h2, h3, h4, h5, h6, h7⟩ := h
    unfold initLayer AnyLayer.params
    dsimp only
    rw [h1, h2, fill_congr _ h3, fill_congr _ h4, fill_congr _ h5]
    simp only [setAll_eq]
    rw [h6, h7]
  all_goals first
    | rfl
    | exact h.elim

end

end Verif.Init

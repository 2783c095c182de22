import Verif.Proofs.ShapePredict
import Verif.Proofs.Drift

/-! Models of any shape with other parameters. -/

namespace Verif.Net

open Verif.Spec Verif.Graph Verif.Props

noncomputable section

theorem composition_unique {ls : List AnyLayer} {x y y' : List ℝ} (h : Composition ls x y) (h' : Composition ls x y') :
    y = y' := by
  induction h generalizing y' with
  | nil x => cases h'; rfl
  | cons h1 h2 _ ih =>
    cases h' with
    | cons g1 g2 g3 =>
      rw [h1] at g1
      cases g1
      rw [h2] at g2
      cases g2
      exact ih g3

theorem simple_setParams {a : AnyLayer} (h : Simple a) (ps : List (List ℝ)) : Simple (a.setParams ps) := by
  unfold AnyLayer.setParams
  split <;> first | exact h | trivial

theorem thetaLayer_of {ls : List AnyLayer} {θ : Theta} (hf : FitsTheta ls θ) {i : Nat} {a : AnyLayer}
    (h : (withTheta ls θ)[i]? = some a) : ∃ b ps, ls[i]? = some b ∧ θ[i]? = some ps ∧
      ps.map List.length = b.params.map List.length ∧ a = b.setParams ps := by
  unfold withTheta at h
  rw [List.getElem?_zipWith] at h
  cases e1 : ls[i]? with
  | none => rw [e1] at h; cases θ[i]? <;> simp at h
  | some b =>
    cases e2 : θ[i]? with
    | none => rw [e1, e2] at h; simp at h
    | some ps =>
      rw [e1, e2] at h
      refine ⟨b, ps, rfl, rfl, ?_, ?_⟩
      · have := congrArg (fun v => v[i]?) hf
        simpa [List.getElem?_map, e1, e2] using this
      · simpa using h.symm

theorem thetaLayers_length {ls : List AnyLayer} {θ : Theta} (hf : FitsTheta ls θ) : (withTheta ls θ).length = ls.length := by
  have := congrArg List.length hf
  simp only [List.length_map] at this
  simp [withTheta, this]

variable {net : Net} {n : Nat}

theorem kept_theta (h : Agrees net n) {θ : Theta} (hf : FitsTheta net.layers θ) {m : Net} (hg : m.graph = net.graph)
    (hl : m.layers = withTheta net.layers θ) : KeptAs net n m := by
  refine ⟨?_, hg, by rw [hl, thetaLayers_length hf]⟩
  intro i a ha
  rw [hl] at ha
  obtain ⟨b, ps, h1, _, h3, rfl⟩ := thetaLayer_of hf ha
  have hb := agrees_holds h i b h1
  cases e : (layoutOf net n).loss i with
  | some lf =>
    obtain ⟨l, rfl, h4⟩ := (Layout.holds_loss e).mp hb
    exact (Layout.holds_loss e).mpr ⟨l, rfl, h4⟩
  | none => exact (Layout.holds_layer e).mpr (((Layout.holds_layer e).mp hb).setParams h3)

theorem simple_theta (hd : ∀ a ∈ net.layers, Simple a) {θ : Theta} (hf : FitsTheta net.layers θ) :
    ∀ a ∈ withTheta net.layers θ, Simple a := by
  intro a ha
  obtain ⟨i, hi⟩ := List.getElem?_of_mem ha
  obtain ⟨b, ps, h1, _, _, rfl⟩ := thetaLayer_of hf hi
  exact simple_setParams (hd b (List.mem_of_getElem? h1)) ps

/-! ### Sizes along a walk -/

theorem Shaped.maps_at (hs : Shaped net n) (hd : ∀ a ∈ net.layers, Simple a) {i : Nat} {a : AnyLayer}
    (hi : i ∉ net.graph.loss) (ha : net.layers[i]? = some a) : Maps (AnyLayer.takes a) (AnyLayer.gives a) a := by
  have := agrees_holds hs.agrees i a ha
  rw [Layout.holds_layer (hs.noloss hi), layoutOf_sizes ha] at this
  rcases (this.sized fun _ => simple_nonrec (hd _ (List.mem_of_getElem? ha))).cases with ⟨mx, raw, l, rfl, _⟩ | ⟨hm, _⟩
  · exact (hd _ (List.mem_of_getElem? ha)).elim
  · exact hm

theorem Shaped.maps_along (hs : Shaped net n) (hd : ∀ a ∈ net.layers, Simple a) : ∀ (p : List Nat) (i : Nat),
    i < net.layers.length → i ∉ net.graph.loss →
    (∀ x y, (x, y) ∈ (i :: p).zip p → y ∈ successors net.graph.forward x) →
    ∃ a ks k, net.layers[i]? = some a ∧ p.map (fun i => net.layers[i]?) = ks.map some ∧ MapsAll (AnyLayer.takes a) k (a :: ks)
  | [], i, hi, hn, _ => ⟨_, [], _, List.getElem?_eq_getElem hi, rfl,
      .cons (hs.maps_at hd hn (List.getElem?_eq_getElem hi)) (.nil _)⟩
  | j :: p, i, hi, hn, hw => by
    have hij := hw i j (by simp)
    have ht := hs.joined.forward i j hij
    obtain ⟨q, hq, hb⟩ := hs.joined.ends i j ht
    have hj : j < net.layers.length := by
      rw [hs.agrees.length]; exact (List.getElem?_eq_some_iff.mp hq).1
    have hjn : j ∉ net.graph.loss := fun hjl => by
      have h1 := (hs.losses j q hq).mp hjl
      rw [hb.mp hij] at h1
      cases h1
    obtain ⟨a, ks, k, h1, h2, h3⟩ := hs.maps_along hd p j hj hjn
      (fun x y hxy => hw x y (by
        show (x, y) ∈ (i, j) :: (j :: p).zip p
        exact List.mem_cons_of_mem _ hxy))
    have e := List.getElem?_eq_getElem hi
    refine ⟨_, a :: ks, k, e, ?_, .cons (hs.maps_at hd hn e) ?_⟩
    · rw [List.map_cons, List.map_cons, h1, h2]
    · rw [hs.agrees.sizes i j _ a ht e h1]
      exact h3

theorem Shaped.maps_walk (hs : Shaped net n) (hd : ∀ a ∈ net.layers, Simple a) {p : List Nat} {o : Nat}
    (hw : Walk net.graph p o) :
    ∃ ks k, p.map (fun i => net.layers[i]?) = ks.map some ∧ MapsAll n k ks := by
  obtain ⟨i, hi, hp⟩ := hw.start
  cases p with
  | nil => cases hp
  | cons j p =>
    cases hp
    have hlt : i < net.layers.length := by rw [hs.agrees.length]; exact hs.valid.2 i (.inl hi)
    obtain ⟨a, ks, k, h1, h2, h3⟩ := hs.maps_along hd p i hlt (hs.inside i hi) hw.arcs
    refine ⟨a :: ks, k, ?_, ?_⟩
    · rw [List.map_cons, List.map_cons, h1, h2]
    · rw [← hs.agrees.inputs i a hi h1]
      exact h3

/-- What the parameters of the layers along `p` are. -/
theorem theta_along {ls : List AnyLayer} {f : Nat → List (List ℝ)} {θ : Theta} (hθ : θ = (List.range ls.length).map f) :
    ∀ (p : List Nat) (ks : List AnyLayer), p.map (fun i => ls[i]?) = ks.map some →
      p.map (fun i => (withTheta ls θ)[i]?) = (withTheta ks (p.map f)).map some
  | [], [], _ => rfl
  | [], k :: ks, h => by cases h
  | i :: p, [], h => by cases h
  | i :: p, k :: ks, h => by
    rw [List.map_cons, List.map_cons, List.cons.injEq] at h
    have := theta_along hθ p ks h.2
    rw [List.map_cons, this]
    show _ = some (k.setParams (f i)) :: _
    congr 1
    have hlt := (List.getElem?_eq_some_iff.mp h.1).1
    unfold withTheta
    rw [List.getElem?_zipWith, h.1, hθ, List.getElem?_map, List.getElem?_range hlt]
    rfl

theorem params_along {ls : List AnyLayer} {f : Nat → List (List ℝ)} (hθ : ls.map AnyLayer.params = (List.range ls.length).map f) :
    ∀ (p : List Nat) (ks : List AnyLayer), p.map (fun i => ls[i]?) = ks.map some → ks.map AnyLayer.params = p.map f
  | [], [], _ => rfl
  | [], k :: ks, h => by cases h
  | i :: p, [], h => by cases h
  | i :: p, k :: ks, h => by
    rw [List.map_cons, List.map_cons, List.cons.injEq] at h
    rw [List.map_cons, List.map_cons, params_along hθ p ks h.2]
    congr 1
    have hlt := (List.getElem?_eq_some_iff.mp h.1).1
    have := congrArg (fun v => v[i]?) hθ
    simp only [List.getElem?_map, h.1, List.getElem?_range hlt, Option.map_some, Option.some.injEq] at this
    exact this

end

end Verif.Net

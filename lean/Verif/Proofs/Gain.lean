import Verif.Spec.Gain
import Verif.Proofs.ShapeDrift
import Verif.Props.Backprop

/-! Proofs for C107. -/

namespace Verif.Net

open Verif.Spec Verif.Graph Verif.Props

noncomputable section

theorem layerDrift_gain (e : ℝ) (x : List ℝ) (a : AnyLayer) : layerDrift 0 e x a = gain a * e := by
  unfold layerDrift gain
  split <;> simp_all <;> ring

theorem drift_gains : ∀ (ls : List AnyLayer) (x : List ℝ) (e : ℝ), drift 0 ls x e = gains ls * e
  | [], _, e => by simp [drift, gains]
  | a :: ls, x, e => by
    show drift 0 ls _ (layerDrift 0 e x a) = _
    rw [drift_gains, layerDrift_gain]
    simp only [gains, List.map_cons, List.prod_cons]
    ring

theorem inputs_close {ls : List AnyLayer} {n m : Nat} (h : MapsAll n m ls) {e : ℝ} (he : 0 ≤ e) {x x' : List ℝ}
    (hx : x.length = n) (hx' : x'.length = n) (hc : Close e x x') :
    ∃ y y', YieldsAll ls x y ∧ YieldsAll ls x' y' ∧ y.length = m ∧ y'.length = m ∧ Close (gains ls * e) y y' := by
  have f : FitsTheta ls (ls.map AnyLayer.params) := by
    unfold FitsTheta; rw [List.map_map]; rfl
  have := theta_close h (le_refl (0 : ℝ)) f f (fun j b k => by simp) he hx hx' hc
  rwa [withTheta_params, drift_gains] at this

variable {net : Net} {n : Nat}

theorem KeptAs.maps_at (hs : Shaped net n) {m : Net} (hk : KeptAs net n m) (hd : ∀ a ∈ m.layers, Simple a) {i : Nat}
    {a : AnyLayer} (hi : i ∉ net.graph.loss) (ha : m.layers[i]? = some a) :
    Maps ((layoutOf net n).sizes i).1 ((layoutOf net n).sizes i).2 a := by
  have := hk.holds i a ha
  rw [Layout.holds_layer (hs.noloss hi)] at this
  rcases (this.sized fun _ => simple_nonrec (hd _ (List.mem_of_getElem? ha))).cases with ⟨mx, raw, l, rfl, _⟩ | ⟨hm, _⟩
  · exact (hd _ (List.mem_of_getElem? ha)).elim
  · exact hm

theorem KeptAs.maps_along (hs : Shaped net n) {m : Net} (hk : KeptAs net n m) (hd : ∀ a ∈ m.layers, Simple a) :
    ∀ (p : List Nat) (i : Nat), i < net.layers.length → i ∉ net.graph.loss →
    (∀ x y, (x, y) ∈ (i :: p).zip p → y ∈ successors net.graph.forward x) →
    ∃ a ks k, m.layers[i]? = some a ∧ p.map (fun i => m.layers[i]?) = ks.map some ∧
      MapsAll ((layoutOf net n).sizes i).1 k (a :: ks)
  | [], i, hi, hn, _ => ⟨_, [], _, List.getElem?_eq_getElem (by rw [hk.length]; exact hi), rfl,
      .cons (hk.maps_at hs hd hn (List.getElem?_eq_getElem (by rw [hk.length]; exact hi))) (.nil _)⟩
  | j :: p, i, hi, hn, hw => by
    have hij := hw i j (by simp)
    have ht := hs.joined.forward i j hij
    obtain ⟨q, hq, hb⟩ := hs.joined.ends i j ht
    have hj : j < net.layers.length := by
      rw [hs.agrees.length]; exact (List.getElem?_eq_some_iff.mp hq).1
    have hjn : j ∉ net.graph.loss := fun hjl => by
      have h1 := (hs.losses j q hq).mp hjl
      rw [hb.mp hij] at h1
      cases h1
    obtain ⟨a, ks, k, h1, h2, h3⟩ := hk.maps_along hs hd p j hj hjn
      (fun x y hxy => hw x y (by
        show (x, y) ∈ (i, j) :: (j :: p).zip p
        exact List.mem_cons_of_mem _ hxy))
    have e := List.getElem?_eq_getElem (l := m.layers) (i := i) (by rw [hk.length]; exact hi)
    refine ⟨_, a :: ks, k, e, ?_, .cons (hk.maps_at hs hd hn e) ?_⟩
    · rw [List.map_cons, List.map_cons, h1, h2]
    · have e1 := List.getElem?_eq_getElem hi
      have e2 := List.getElem?_eq_getElem hj
      have := hs.agrees.sizes i j _ _ ht e1 e2
      rw [layoutOf_sizes e2] at h3
      rw [layoutOf_sizes e1]
      dsimp only at h3 ⊢
      rw [this]
      exact h3

theorem KeptAs.maps_walk (hs : Shaped net n) {m : Net} (hk : KeptAs net n m) (hd : ∀ a ∈ m.layers, Simple a)
    {p : List Nat} {o : Nat} (hw : Walk net.graph p o) :
    ∃ ks k, p.map (fun i => m.layers[i]?) = ks.map some ∧ MapsAll n k ks := by
  obtain ⟨i, hi, hp⟩ := hw.start
  cases p with
  | nil => cases hp
  | cons j p =>
    cases hp
    have hlt : i < net.layers.length := by rw [hs.agrees.length]; exact hs.valid.2 i (.inl hi)
    obtain ⟨a, ks, k, h1, h2, h3⟩ := hk.maps_along hs hd p i hlt (hs.inside i hi) hw.arcs
    have e := List.getElem?_eq_getElem hlt
    refine ⟨a :: ks, k, ?_, ?_⟩
    · rw [List.map_cons, List.map_cons, h1, h2]
    · rw [layoutOf_sizes e] at h3
      rw [← hs.agrees.inputs i _ hi e]
      exact h3

end

end Verif.Net

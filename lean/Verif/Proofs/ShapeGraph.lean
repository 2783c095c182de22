import Verif.Proofs.TotalGraph
import Verif.Props.Graph
import Verif.Spec.Shape
import Mathlib.Data.Fintype.Order
import Mathlib.Order.WellFounded

/-! The graphs of models of any shape. -/

namespace Verif.Graph

open Verif.Spec Verif.Props

/-! ### Runs start from what they have reached -/

/-- Each arc starts at a layer in `vis` or at the end of an earlier arc. -/
def Chained : (Nat → Prop) → List (Nat × Nat) → Prop
  | _, [] => True
  | vis, a :: as => vis a.1 ∧ Chained (fun j => vis j ∨ j = a.2) as

theorem Chained.mono : ∀ {as : List (Nat × Nat)} {vis vis' : Nat → Prop}, (∀ j, vis j → vis' j) → Chained vis as →
    Chained vis' as
  | [], _, _, _, _ => trivial
  | a :: as, vis, vis', h, hc => ⟨h _ hc.1, hc.2.mono fun j hj => hj.elim (fun h' => .inl (h j h')) .inr⟩

theorem Chained.append : ∀ {as bs : List (Nat × Nat)} {vis : Nat → Prop}, Chained vis as →
    Chained (fun j => vis j ∨ ∃ a ∈ as, a.2 = j) bs → Chained vis (as ++ bs)
  | [], bs, vis, _, hb => hb.mono fun j hj => hj.elim id fun ⟨a, h, _⟩ => by cases h
  | a :: as, bs, vis, ha, hb => by
    refine ⟨ha.1, ha.2.append (hb.mono fun j hj => ?_)⟩
    rcases hj with h | ⟨b, h1, h2⟩
    · exact .inl (.inl h)
    · rcases List.mem_cons.mp h1 with rfl | h1
      · exact .inl (.inr h2.symm)
      · exact .inr ⟨b, h1, h2⟩

theorem chained_of_all : ∀ {as : List (Nat × Nat)} {vis : Nat → Prop}, (∀ a ∈ as, vis a.1) → Chained vis as
  | [], _, _ => trivial
  | a :: as, vis, h => ⟨h a (by simp), chained_of_all fun b hb => .inl (h b (by simp [hb]))⟩

theorem runLoop_chained {succ : Nat → List Nat} {start : List Nat} :
    ∀ (n : Nat) (E L : List Nat) (ret : List (Nat × Nat)) (done : List Nat) (r : List (Nat × Nat)),
      RunInv succ start E L ret done → Chained (· ∈ start) ret →
      (∀ x ∈ L, x ∈ start ∨ ∃ a ∈ ret, a.2 = x) →
      runLoop succ n L ret done = some r → Chained (· ∈ start) r := by
  intro n
  induction n with
  | zero =>
    intro E L ret done r h hc hL hr
    cases L with
    | nil => simp [runLoop] at hr; subst hr; exact hc
    | cons l ls => simp [runLoop] at hr
  | succ n ih =>
    intro E L ret done r h hc hL hr
    cases L with
    | nil => simp [runLoop] at hr; subst hr; exact hc
    | cons l ls =>
      have hstep := runInv_step h
      obtain ⟨a1, _, _, a4⟩ := wave_fold succ (l :: ls) (l :: ls) ⟨ret, [], done⟩ List.nodup_nil
        (fun _ h => h)
      have hret : (wave succ (l :: ls) ret done).ret = ret ++ (l :: ls).flatMap (arcsOf succ) := a1
      refine ih _ _ _ _ r hstep ?_ ?_ hr
      · rw [hret]
        refine hc.append (chained_of_all ?_)
        rintro ⟨x, y⟩ ha
        exact hL x ((mem_arcs succ _ x y).mp ha).1
      · intro y hy
        rw [show wave succ (l :: ls) ret done
          = (l :: ls).foldl (visitLayer succ (l :: ls)) ⟨ret, [], done⟩ from rfl, a4 y] at hy
        rcases hy with hy | ⟨⟨x, h1, h2⟩, _⟩
        · simp at hy
        · right
          rw [hret]
          exact ⟨(x, y), List.mem_append_right _ ((mem_arcs succ _ x y).mpr ⟨h1, h2⟩), rfl⟩

/-- The run that the model uses. -/
theorem run_chained {e : Edges} (he : EdgesOk e) {start : List Nat} (hs : start.Nodup) :
    let r := (runLoop (successors e) (e.length + 2) start [] []).getD []
    Chained (· ∈ start) r ∧ ∀ x y, (x, y) ∈ r ↔ Reachable (fun x y => y ∈ successors e x) start x ∧ y ∈ successors e x := by
  obtain ⟨r, h1, h2, h3⟩ := run_spec hs (successors_nodup he) (keys_of e)
  have h4 := h1 (e.length + 2) (by simp)
  intro r'
  have e1 : r' = r := by
    show (runLoop _ _ _ _ _).getD [] = r
    rw [h4]
    rfl
  rw [e1]
  exact ⟨runLoop_chained _ [] start [] [] r (runInv_init _ _ hs) trivial (fun x hx => .inl hx) h4, h3⟩

/-! ### Models made of edges -/

/-- Layers and loss layers are connected as `create_edge` and `create_loss_edge` do it. -/
structure Joined (g : DLGraph) : Prop where
  back : ∀ x y, backArc g y x ↔ trainArc g x y
  source : ∀ x y, trainArc g x y → ∃ p, g.layers[x]? = some p ∧ p.loss = false
  ends : ∀ x y, trainArc g x y → ∃ q, g.layers[y]? = some q ∧ (fwdArc g x y ↔ q.loss = false)
  forward : ∀ x y, fwdArc g x y → trainArc g x y

theorem Joined.grow {g g' : DLGraph} (h : Joined g) (l : Ptr) (h1 : g'.layers = g.layers ++ [l])
    (h2 : g'.forward = g.forward) (h3 : g'.training = g.training) (h4 : g'.backward = g.backward) : Joined g' := by
  have up : ∀ {i : Nat} {p : Ptr}, g.layers[i]? = some p → g'.layers[i]? = some p := by
    intro i p hp
    rw [h1, List.getElem?_append_left (List.getElem?_eq_some_iff.mp hp).1]
    exact hp
  refine ⟨?_, ?_, ?_, ?_⟩
  · unfold backArc trainArc; rw [h3, h4]; exact h.back
  · unfold trainArc; rw [h3]
    intro x y hxy
    obtain ⟨p, k1, k2⟩ := h.source x y hxy
    exact ⟨p, up k1, k2⟩
  · unfold trainArc fwdArc; rw [h3, h2]
    intro x y hxy
    obtain ⟨p, k1, k2⟩ := h.ends x y hxy
    exact ⟨p, up k1, k2⟩
  · unfold trainArc fwdArc; rw [h3, h2]; exact h.forward

theorem Joined.connect {g g' : DLGraph} (h : Joined g) (b : Prop) {i j : Nat} {s d : Ptr}
    (hi : g.layers[i]? = some s) (hj : g.layers[j]? = some d) (hs : s.loss = false) (hb : b ↔ d.loss = false)
    (h1 : AddsArc b (fwdArc g) (fwdArc g') i j) (h2 : AddsArc True (trainArc g) (trainArc g') i j)
    (h3 : AddsArc True (backArc g) (backArc g') j i) (h4 : g'.layers = g.layers) : Joined g' := by
  refine ⟨?_, ?_, ?_, ?_⟩
  · intro x y
    rw [h3 y x, h2 x y, h.back x y]
    tauto
  · intro x y hxy
    rw [h4]
    rcases (h2 x y).mp hxy with hxy | ⟨_, rfl, rfl⟩
    · exact h.source x y hxy
    · exact ⟨s, hi, hs⟩
  · intro x y hxy
    rw [h4]
    rcases (h2 x y).mp hxy with hxy | ⟨_, rfl, rfl⟩
    · obtain ⟨q, k1, k2⟩ := h.ends x y hxy
      refine ⟨q, k1, ?_⟩
      rw [h1 x y, k2]
      constructor
      · rintro (k | ⟨k, rfl, rfl⟩)
        · exact k
        · rw [hj] at k1
          cases k1
          exact hb.mp k
      · exact .inl
    · refine ⟨d, hj, ?_⟩
      rw [h1 x y]
      constructor
      · rintro (k | ⟨k, _⟩)
        · obtain ⟨q, k1, k2⟩ := h.ends x y (h.forward x y k)
          rw [hj] at k1
          cases k1
          exact k2.mp k
        · exact hb.mp k
      · exact fun k => .inr ⟨hb.mpr k, rfl, rfl⟩
  · intro x y hxy
    rw [h2 x y]
    rcases (h1 x y).mp hxy with hxy | ⟨_, rfl, rfl⟩
    · exact .inl (h.forward x y hxy)
    · exact .inr ⟨trivial, rfl, rfl⟩

theorem joined_built (ops : List Op) : (∀ op ∈ ops, Joins op) → Joined (built ops).graph := by
  induction ops using List.reverseRecOn with
  | nil =>
    intro _
    refine ⟨?_, ?_, ?_, ?_⟩ <;> intro x y <;> simp [built, Model.run, Model.empty, DLGraph.empty, backArc, trainArc,
      fwdArc, successors]
  | append_singleton ops op ih =>
    intro hops
    have h := ih fun o ho => hops o (by simp [ho])
    have hop := hops op (by simp)
    have e : built (ops ++ [op]) = ((built ops).apply op).1 := by
      show Model.run _ _ = _
      rw [run_append]
      rfl
    rw [e]
    have hm := mok_run ops mok_empty
    have edge : ∀ s d, ends op = some (s, d) → (addsTrain op ↔ True) → (addsBack op ↔ True) → s.loss = false →
        (addsFwd op ↔ d.loss = false) → Joined ((built ops).apply op).1.graph := by
      intro s d he ht hb hs hd
      by_cases hin : s ∈ (built ops).graph.layers ∧ d ∈ (built ops).graph.layers
      · obtain ⟨i, hi⟩ := List.getElem?_of_mem hin.1
        obtain ⟨j, hj⟩ := List.getElem?_of_mem hin.2
        obtain ⟨r1, r2, r3, r4, _⟩ := C34_records ops op s d he i j hi hj
        refine h.connect (addsFwd op) hi hj hs hd r1 ?_ ?_ r4
        · rwa [propext ht] at r2
        · rwa [propext hb] at r3
      · obtain ⟨msg, hm'⟩ := (C34_atomic (built ops) op s d he).2 (by tauto)
        rw [hm']
        exact h
    cases op with
    | addLayer =>
      have e1 := addNode_fresh hm false
      refine h.grow ⟨(built ops).fresh, false⟩ ?_ ?_ ?_ ?_ <;> simp [Model.apply, e1]
    | addLoss =>
      have e1 := addLoss_fresh hm
      refine h.grow ⟨(built ops).fresh, true⟩ ?_ ?_ ?_ ?_ <;> simp [Model.apply, e1]
    | backArc s d => exact hop.elim
    | frontArc s d => exact hop.elim
    | lossArc s d => exact hop.elim
    | edge s d => exact edge s d rfl (by simp [addsTrain]) (by simp [addsBack]) hop.1 (by simp [addsFwd, hop.2])
    | lossEdge s d => exact edge s d rfl (by simp [addsTrain]) (by simp [addsBack]) hop.1 (by simp [addsFwd, hop.2])

/-! ### Acyclic graphs -/

/-- In an acyclic relation on finitely many points induction over predecessors is possible. -/
theorem acyclic_induction {arc : Nat → Nat → Prop} (ha : Acyclic arc) {k : Nat} (hk : ∀ x y, arc x y → x < k)
    {P : Nat → Prop} (step : ∀ i, i < k → (∀ x, arc x i → P x) → P i) : ∀ i, i < k → P i := by
  let r : Fin k → Fin k → Prop := fun x y => Relation.TransGen arc x y
  have : IsTrans (Fin k) r := ⟨fun _ _ _ h1 h2 => Relation.TransGen.trans h1 h2⟩
  have : Std.Irrefl r := ⟨fun x h => ha x h⟩
  have wf : WellFounded r := Finite.wellFounded_of_trans_of_irrefl r
  intro i hi
  have key : ∀ x : Fin k, P x := by
    intro x
    induction x using wf.induction with
    | _ x ih => exact step x x.2 fun y hy => ih ⟨y, hk y x hy⟩ (Relation.TransGen.single hy)
  exact key ⟨i, hi⟩

end Verif.Graph

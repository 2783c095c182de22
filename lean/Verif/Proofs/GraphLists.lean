import Verif.Proofs.GraphOps
import Verif.Proofs.GraphRun
import Verif.Spec.Graph

namespace Verif.Graph

theorem keys_of (e : Edges) : ∀ x, successors e x ≠ [] → x ∈ e.map Prod.fst :=
  fun _ h => successors_key h

theorem run_once {e : Edges} (he : EdgesOk e) {start : List Nat} (hs : start.Nodup) :
    ∃ r N, (∀ fuel, N ≤ fuel → runLoop (successors e) fuel start [] [] = some r) ∧
      Spec.ListsArcsOnce (fun x y => y ∈ successors e x) start r := by
  obtain ⟨r, h1, h2, h3⟩ := run_spec hs (successors_nodup he) (keys_of e)
  exact ⟨r, _, h1, h2, h3⟩

theorem run_ordered {e : Edges} (he : EdgesOk e) {start : List Nat} (hs : start.Nodup)
    (level : Nat → Nat) (h0 : ∀ s ∈ start, level s = 0)
    (hlev : ∀ x y, Spec.Reachable (fun x y => y ∈ successors e x) start x → y ∈ successors e x →
      level y = level x + 1) :
    ∃ r N, (∀ fuel, N ≤ fuel → runLoop (successors e) fuel start [] [] = some r) ∧
      Spec.ArcsInOrder r := by
  obtain ⟨r, h1, h2, h3⟩ := run_spec hs (successors_nodup he) (keys_of e)
  refine ⟨r, _, h1, ?_⟩
  have hsorted := runLoop_sorted level (fun x hx y hy => hlev x y hx hy) _ [] start [] [] 0 r
    (runInv_init (successors e) start hs) h0 List.Pairwise.nil (by simp) (h1 _ (Nat.le_refl _))
  intro i j a b ha hb hab
  by_contra hij
  have ha' := (h3 a.1 a.2).mp (List.mem_of_getElem? ha)
  have hl := hlev a.1 a.2 ha'.1 ha'.2
  have hi := (List.getElem?_eq_some_iff.mp ha)
  have hj := (List.getElem?_eq_some_iff.mp hb)
  obtain ⟨hi1, hi2⟩ := hi
  obtain ⟨hj1, hj2⟩ := hj
  rcases Nat.lt_or_ge j i with hlt | hge
  · have := List.pairwise_iff_getElem.mp hsorted j i hj1 hi1 hlt
    rw [hi2, hj2] at this
    rw [hab] at hl
    omega
  · have : i = j := by omega
    subst this
    rw [hi2] at hj2
    subst hj2
    rw [← hab] at hl
    omega

/-- The lists are the layers without predecessor / successor. -/
def Lists (g : DLGraph) : Prop :=
  (∀ i, i ∈ g.inputs ↔ i < g.layers.length ∧ i ∉ g.loss ∧ ∀ x, i ∉ successors g.forward x) ∧
  (∀ i, i ∈ g.outputs ↔ i < g.layers.length ∧ i ∉ g.loss ∧ ∀ y, y ∉ successors g.forward i)

theorem lists_compute {g : DLGraph} (he : EdgesOk g.forward) :
    Lists g.computeInputs.computeOutputs := by
  constructor
  · intro i
    show i ∈ (List.range g.layers.length).filter _ ↔ i < g.layers.length ∧ i ∉ g.loss ∧
      ∀ x, i ∉ successors g.forward x
    rw [List.mem_filter, List.mem_range]
    have := hasPredecessors_iff he i
    by_cases hp : hasPredecessors g.forward i = true
    · obtain ⟨x, hx⟩ := this.mp hp
      simp only [hp]
      simp
      intro _ _ 
      exact ⟨x, hx⟩
    · have hn : ∀ x, i ∉ successors g.forward x := fun x hx => hp (this.mpr ⟨x, hx⟩)
      simp only [hp]
      simp [hn]
  · intro i
    show i ∈ (List.range g.layers.length).filter (fun i =>
      !hasSuccessors g.forward i && !g.loss.contains i) ↔ i < g.layers.length ∧ i ∉ g.loss ∧
      ∀ y, y ∉ successors g.forward i
    rw [List.mem_filter, List.mem_range]
    have := hasSuccessors_iff g.forward i
    by_cases hp : hasSuccessors g.forward i = true
    · obtain ⟨y, hy⟩ := this.mp hp
      simp only [hp]
      simp
      intro _ _
      exact ⟨y, hy⟩
    · have hn : ∀ y, y ∉ successors g.forward i := fun y hy => hp (this.mpr ⟨y, hy⟩)
      simp only [hp]
      simp [hn]

theorem lists_nodup_unique {l l' : List Nat} (h : l.Pairwise (· < ·)) (h' : l'.Pairwise (· < ·))
    (hm : ∀ i, i ∈ l ↔ i ∈ l') : l = l' := by
  have n1 : l.Nodup := h.imp (fun hab => Nat.ne_of_lt hab)
  have n2 : l'.Nodup := h'.imp (fun hab => Nat.ne_of_lt hab)
  exact List.Perm.eq_of_pairwise (fun a b _ _ h1 h2 => by omega) h h'
    ((List.perm_ext_iff_of_nodup n1 n2).mpr hm)

end Verif.Graph

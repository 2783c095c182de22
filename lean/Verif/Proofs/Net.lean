import Verif.Proofs.NetLayer
import Verif.Proofs.GraphSingle

namespace Verif.Net

open Verif.Graph Verif.Spec

/-! ### Calls keep the graph and the cores of the layers -/

theorem each_inv {σ β : Type} {f : σ → β → Exec (σ × Option String)} (P : σ → Prop)
    (step : ∀ s b s' e, P s → f s b = .ok (s', e) → P s') :
    ∀ (bs : List β) (s s' : σ) (e : Option String), P s → each f bs s = .ok (s', e) → P s' := by
  intro bs
  induction bs with
  | nil => intro s s' e hs h; cases h; exact hs
  | cons b bs ih =>
    intro s s' e hs h
    obtain ⟨⟨t, et⟩, h1, h2⟩ := Exec.bind_eq_ok h
    cases et with
    | none => exact ih _ _ _ (step _ _ _ _ hs h1) h2
    | some m => cases h2; exact step _ _ _ _ hs h1

theorem rd_eq_ok {α : Type _} {l : List α} {i : Nat} {a : α} (h : rd l i = .ok a) :
    l[i]? = some a := by
  unfold rd at h
  split at h
  · cases h; assumption
  · cases h

theorem cores_set {ls : List AnyLayer} {i : Nat} {l l' : AnyLayer} (h : ls[i]? = some l)
    (hc : core l' = core l) : (ls.set i l').map core = ls.map core := by
  apply List.ext_getElem?
  intro j
  rw [List.getElem?_map, List.getElem?_map, List.getElem?_set]
  split
  · rename_i e
    subst e
    split
    · simp [h, hc]
    · rw [List.getElem?_eq_none (by omega)]
  · rfl

theorem forwardAt_core {x : List ℝ} {ls ls' : List AnyLayer} {s : Source × Nat} {e : Option String}
    (h : forwardAt x ls s = .ok (ls', e)) : ls'.map core = ls.map core := by
  unfold forwardAt at h
  split at h
  · obtain ⟨l, h1, h⟩ := Exec.bind_eq_ok h
    obtain ⟨r, h2, h⟩ := Exec.bind_eq_ok h
    cases h
    exact cores_set (rd_eq_ok h1) (core_forward h2)
  · cases h; rfl
  · cases h

theorem trainAt_core {x : List ℝ} {st st' : Steps} {s : Source × Nat} {e : Option String}
    (h : trainAt x st s = .ok (st', e)) : st'.layers.map core = st.layers.map core := by
  unfold trainAt at h
  split at h
  · obtain ⟨l, h1, h⟩ := Exec.bind_eq_ok h
    obtain ⟨r, h2, h⟩ := Exec.bind_eq_ok h
    cases h
    exact cores_set (rd_eq_ok h1) (core_trainingForward h2)
  · cases h; rfl
  · cases h

theorem backwardAt_core {x : List ℝ} {st st' : Steps} {i : Nat} {g : List ℝ} {e : Option String}
    (h : backwardAt x st i g = .ok (st', e)) : st'.layers.map core = st.layers.map core := by
  unfold backwardAt at h
  obtain ⟨l, h1, h⟩ := Exec.bind_eq_ok h
  obtain ⟨l', h2, h⟩ := Exec.bind_eq_ok h
  obtain ⟨r, h3, h⟩ := Exec.bind_eq_ok h
  cases h
  refine cores_set (rd_eq_ok h1) ((core_backward h3).trans ?_)
  unfold follow at h2
  split at h2
  · obtain ⟨v, _, h2⟩ := Exec.bind_eq_ok h2
    cases h2
    exact core_setLastInput _ _
  · cases h2; rfl

theorem backArcAt_core {x : List ℝ} {st st' : Steps} {a : Nat × Nat} {e : Option String}
    (h : backArcAt x st a = .ok (st', e)) : st'.layers.map core = st.layers.map core := by
  obtain ⟨l, _, h⟩ := Exec.bind_eq_ok h
  exact backwardAt_core h

theorem targetAt_core {t : List ℝ} {ls ls' : List AnyLayer} {i : Nat} {e : Option String}
    (h : targetAt t ls i = .ok (ls', e)) : ls'.map core = ls.map core := by
  unfold targetAt at h
  obtain ⟨l, h1, h⟩ := Exec.bind_eq_ok h
  cases l with
  | loss f l =>
    cases h
    exact cores_set (rd_eq_ok h1) rfl
  | _ => cases h; rfl

theorem next_inv {σ τ : Type} {r : Exec (σ × Option String)} {fail : σ → τ}
    {f : σ → Exec (τ × Option String)} {t : τ} {e : Option String} (h : next r fail f = .ok (t, e)) :
    ∃ s e', r = .ok (s, e') ∧ (t = fail s ∨ f s = .ok (t, e)) := by
  obtain ⟨⟨s, e'⟩, h1, h2⟩ := Exec.bind_eq_ok h
  refine ⟨s, e', h1, ?_⟩
  cases e' with
  | none => exact Or.inr h2
  | some m => cases h2; exact Or.inl rfl

/-- Same graph, same layers up to buffer contents. -/
def Same (n n' : Net) : Prop := n'.graph = n.graph ∧ n'.layers.map core = n.layers.map core

theorem predict_same {n n' : Net} {x : List ℝ} {r : Except String (List ℝ)}
    (h : n.predict x = .ok (n', r)) : Same n n' := by
  unfold Net.predict at h
  split at h
  · cases h; exact ⟨rfl, rfl⟩
  · obtain ⟨⟨ls, e⟩, h1, h⟩ := Exec.bind_eq_ok h
    have key : ls.map core = n.layers.map core :=
      each_inv (fun s => s.map core = n.layers.map core)
        (fun s b s' e hs h => (forwardAt_core h).trans hs) _ _ _ _ rfl h1
    cases e with
    | some m => cases h; exact ⟨rfl, key⟩
    | none =>
      obtain ⟨l, _, h⟩ := Exec.bind_eq_ok h
      dsimp only at h
      split at h
      · cases h; exact ⟨rfl, key⟩
      · cases h; exact ⟨rfl, key⟩
      · cases h

theorem step_same {n n' : Net} {x t : List ℝ} {e : Option String}
    (h : n.step x t = .ok (n', e)) : Same n n' := by
  unfold Net.step at h
  obtain ⟨⟨st, e1⟩, h1, h⟩ := Exec.bind_eq_ok h
  cases h
  refine ⟨rfl, ?_⟩
  show st.layers.map core = _
  obtain ⟨ls, _, h2, h3⟩ := next_inv h1
  have k1 : ls.map core = n.layers.map core :=
    each_inv (fun s => s.map core = n.layers.map core)
      (fun s b s' e hs h => (targetAt_core h).trans hs) _ _ _ _ rfl h2
  rcases h3 with rfl | h3
  · exact k1
  obtain ⟨s1, _, h2, h3⟩ := next_inv h3
  have k2 : s1.layers.map core = n.layers.map core :=
    each_inv (fun s : Steps => s.layers.map core = n.layers.map core)
      (fun s b s' e hs h => (trainAt_core h).trans hs) _ _ _ _ k1 h2
  rcases h3 with rfl | h3
  · exact k2
  obtain ⟨s2, _, h2, h3⟩ := next_inv h3
  have k3 : s2.layers.map core = n.layers.map core :=
    each_inv (fun s : Steps => s.layers.map core = n.layers.map core)
      (fun s b s' e hs h => (backwardAt_core h).trans hs) _ _ _ _ k2 h2
  rcases h3 with rfl | h3
  · exact k3
  exact each_inv (fun s : Steps => s.layers.map core = n.layers.map core)
      (fun s b s' e hs h => (backArcAt_core h).trans hs) _ _ _ _ k3 h3

theorem resetScore_same (n : Net) : Same n n.resetScore := by
  refine ⟨rfl, ?_⟩
  apply List.ext_getElem?
  intro i
  show ((n.layers.mapIdx _).map core)[i]? = _
  rw [List.getElem?_map, List.getElem?_mapIdx, List.getElem?_map]
  cases n.layers[i]? with
  | none => rfl
  | some a =>
    cases a with
    | loss f l => simp only [Option.map_some]; split <;> rfl
    | _ => rfl

theorem run_same : ∀ (cs : List Call) {n n' : Net}, n.run cs = .ok n' → Same n n' := by
  intro cs
  induction cs with
  | nil => intro n n' h; cases h; exact ⟨rfl, rfl⟩
  | cons c cs ih =>
    intro n n' h
    obtain ⟨m, h1, h2⟩ := Exec.bind_eq_ok h
    obtain ⟨e1, e2⟩ := ih h2
    have : Same n m := by
      cases c with
      | predict x => obtain ⟨⟨m', r⟩, h3, h4⟩ := Exec.bind_eq_ok h1; cases h4; exact predict_same h3
      | step x t => obtain ⟨⟨m', r⟩, h3, h4⟩ := Exec.bind_eq_ok h1; cases h4; exact step_same h3
      | resetScore => cases h1; exact resetScore_same n
    exact ⟨e1.trans this.1, e2.trans this.2⟩

/-! ### The runs of a path -/

theorem eq_singleton {l : List Nat} {a : Nat} (hn : l.Nodup) (h : ∀ x, x ∈ l ↔ x = a) : l = [a] := by
  have : l.Perm [a] := (List.perm_ext_iff_of_nodup hn (by simp)).mpr (by simpa using h)
  exact List.perm_singleton.mp this

theorem mem_zip_tail {a x y : Nat} {rest : List Nat} (h : (x, y) ∈ (a :: rest).zip rest) :
    x ∈ a :: rest ∧ y ∈ rest := ⟨(List.of_mem_zip h).1, (List.of_mem_zip h).2⟩

theorem runLoop_path (succ : Nat → List Nat) : ∀ (rest : List Nat) (a : Nat) (ret : List (Nat × Nat))
    (done : List Nat) (fuel : Nat), rest.length < fuel → (a :: rest).Nodup →
    (∀ z ∈ rest, z ∉ done) →
    (∀ x ∈ a :: rest, ∀ y, y ∈ succ x ↔ (x, y) ∈ (a :: rest).zip rest) → (∀ x, (succ x).Nodup) →
    runLoop succ fuel [a] ret done = some (ret ++ (a :: rest).zip rest) := by
  intro rest
  induction rest with
  | nil =>
    intro a ret done fuel hf hn hd hs hsn
    obtain ⟨k, rfl⟩ : ∃ k, fuel = k + 1 := ⟨fuel - 1, by simp at hf; omega⟩
    have : succ a = [] := by
      apply List.eq_nil_iff_forall_not_mem.mpr
      intro y hy
      have := (hs a (by simp) y).mp hy
      simp at this
    simp [runLoop, wave, visitLayer, this]
  | cons b rest ih =>
    intro a ret done fuel hf hn hd hs hsn
    obtain ⟨k, rfl⟩ : ∃ k, fuel = k + 1 := ⟨fuel - 1, by simp at hf; omega⟩
    have hab : a ∉ b :: rest := (List.nodup_cons.mp hn).1
    have hn' := (List.nodup_cons.mp hn).2
    have hsa : succ a = [b] := by
      refine eq_singleton (hsn a) fun y => ?_
      rw [hs a (by simp) y]
      show (a, y) ∈ (a, b) :: (b :: rest).zip rest ↔ y = b
      constructor
      · intro h
        rcases List.mem_cons.mp h with h | h
        · exact (Prod.mk.inj h).2
        · exact absurd (mem_zip_tail h).1 hab
      · rintro rfl; simp
    have hba : b ≠ a := by rintro rfl; exact hab (by simp)
    have hbd : b ∉ done := hd b (by simp)
    have e : runLoop succ (k + 1) [a] ret done
        = runLoop succ k [b] (ret ++ [(a, b)]) (done ++ [a]) := by
      simp [runLoop, wave, visitLayer, visitArc, hsa, hba, hbd]
    rw [e, ih b _ _ k (by simp at hf; omega) hn' ?_ ?_ hsn]
    · simp
    · intro z hz
      simp only [List.mem_append, List.mem_singleton, not_or]
      exact ⟨hd z (by simp [hz]), by rintro rfl; exact hab (by simp [hz])⟩
    · intro x hx y
      rw [hs x (List.mem_cons_of_mem _ hx) y]
      show (x, y) ∈ (a, b) :: (b :: rest).zip rest ↔ _
      constructor
      · intro h
        rcases List.mem_cons.mp h with h | h
        · rw [(Prod.mk.inj h).1] at hx; exact absurd hx hab
        · exact h
      · exact fun h => List.mem_cons_of_mem _ h

theorem pred_of_tail : ∀ (rest : List Nat) (a y : Nat), y ∈ rest →
    ∃ x, (x, y) ∈ (a :: rest).zip rest := by
  intro rest
  induction rest with
  | nil => intro a y h; simp at h
  | cons b rest ih =>
    intro a y h
    rcases List.mem_cons.mp h with rfl | h
    · exact ⟨a, by simp⟩
    · obtain ⟨x, hx⟩ := ih b y h
      exact ⟨x, List.mem_cons_of_mem _ hx⟩

theorem succ_iff : ∀ (rest : List Nat) (a x : Nat), (a :: rest).Nodup → x ∈ a :: rest →
    ((∃ y, (x, y) ∈ (a :: rest).zip rest) ↔ x ≠ (a :: rest).getLast (by simp)) := by
  intro rest
  induction rest with
  | nil => intro a x _ hx; simp at hx; simp [hx]
  | cons b rest ih =>
    intro a x hn hx
    obtain ⟨hab, hn'⟩ := List.nodup_cons.mp hn
    rw [List.getLast_cons (by simp)]
    by_cases hxa : x = a
    · subst hxa
      constructor
      · rintro _ h
        exact hab (h ▸ List.getLast_mem _)
      · intro _; exact ⟨b, by simp⟩
    · have hx' : x ∈ b :: rest := (List.mem_cons.mp hx).resolve_left hxa
      rw [← ih b x hn' hx']
      constructor
      · rintro ⟨y, hy⟩
        rcases List.mem_cons.mp hy with h | h
        · exact absurd (Prod.mk.inj h).1 hxa
        · exact ⟨y, h⟩
      · rintro ⟨y, hy⟩
        exact ⟨y, List.mem_cons_of_mem _ hy⟩

/-- Facts about a graph whose forward arcs form a path. -/
theorem path_facts {g : DLGraph} (hok : Ok g) (hl : Lists g) {a : Nat} {rest : List Nat}
    (hp : IsPath g (a :: rest)) :
    forwardArcs g = (a :: rest).zip rest ∧ g.inputs = [a] ∧
      g.outputs = [(a :: rest).getLast (by simp)] := by
  have hin : g.inputs = [a] := by
    refine eq_singleton (nodup_of_sorted hok.inputsSorted) fun i => ?_
    rw [hl.1 i, ← and_assoc, ← hp.layers i]
    constructor
    · rintro ⟨h1, h2⟩
      rcases List.mem_cons.mp h1 with h | h
      · exact h
      · obtain ⟨x, hx⟩ := pred_of_tail rest a i h
        exact absurd ((hp.arcs x i).mpr hx) (h2 x)
    · rintro rfl
      refine ⟨by simp, fun x hx => ?_⟩
      exact (List.nodup_cons.mp hp.nodup).1 (mem_zip_tail ((hp.arcs x i).mp hx)).2
  refine ⟨?_, hin, ?_⟩
  · obtain ⟨r, h1, _⟩ := run_spec (succ := successors g.forward)
      (nodup_of_sorted hok.inputsSorted) (successors_nodup hok.forward) (keys_of g.forward)
    have e := runLoop_path (successors g.forward) rest a [] []
      (rest.length + 1 + ((g.forward.map Prod.fst).length + 2))
      (by omega) hp.nodup (by simp) (fun x _ y => hp.arcs x y) (successors_nodup hok.forward)
    rw [← hin, h1 _ (by omega)] at e
    unfold forwardArcs DLGraph.forwardRun
    rw [h1 _ (by simp)]
    simpa using e
  · refine eq_singleton (nodup_of_sorted hok.outputsSorted) fun i => ?_
    rw [hl.2 i, ← and_assoc, ← hp.layers i]
    constructor
    · rintro ⟨h1, h2⟩
      by_contra hne
      obtain ⟨y, hy⟩ := (succ_iff rest a i hp.nodup h1).mpr hne
      exact h2 y ((hp.arcs i y).mpr hy)
    · rintro rfl
      refine ⟨List.getLast_mem _, fun y hy => ?_⟩
      exact (succ_iff rest a _ hp.nodup (List.getLast_mem _)).mp ⟨y, (hp.arcs _ y).mp hy⟩ rfl

/-! ### Prediction along a path -/

/-- `layer_n(… layer_1(x) …) = y`, for all contents of the buffers. -/
inductive YieldsAll : List AnyLayer → List ℝ → List ℝ → Prop
  | nil (x : List ℝ) : YieldsAll [] x x
  | cons {l : AnyLayer} {ls : List AnyLayer} {x z y : List ℝ} :
      Yields l x z → YieldsAll ls z y → YieldsAll (l :: ls) x y

theorem yieldsAll_of_maps {ls : List AnyLayer} {n m : Nat} (h : MapsAll n m ls) :
    ∀ {x : List ℝ}, x.length = n → ∃ y, y.length = m ∧ YieldsAll ls x y := by
  induction h with
  | nil n => intro x hx; exact ⟨x, hx, .nil x⟩
  | cons h1 _ ih =>
    intro x hx
    obtain ⟨z, hz, h2⟩ := yields_of_maps h1 hx
    obtain ⟨y, hy, h3⟩ := ih hz
    exact ⟨y, hy, .cons h2 h3⟩

theorem YieldsAll.composition {ls : List AnyLayer} {x y : List ℝ} (h : YieldsAll ls x y) :
    Composition ls x y := by
  induction h with
  | nil x => exact .nil x
  | cons h1 _ ih =>
    obtain ⟨l', e1, e2⟩ := h1 _ rfl
    exact .cons e1 e2 ih

theorem getElem?_core {ls ls0 : List AnyLayer} (h : ls.map core = ls0.map core) {i : Nat}
    {l : AnyLayer} (hl : ls0[i]? = some l) : ∃ l', ls[i]? = some l' ∧ core l' = core l := by
  have := congrArg (fun v => v[i]?) h
  simp only [List.getElem?_map, hl, Option.map_some] at this
  cases hi : ls[i]? with
  | none => rw [hi] at this; simp at this
  | some l' => rw [hi] at this; simp at this; exact ⟨l', rfl, this⟩

theorem forwardAt_yields {x v z : List ℝ} {ls ls0 : List AnyLayer} (hc : ls.map core = ls0.map core)
    {s : Source} {i : Nat} {l : AnyLayer} (hl : ls0[i]? = some l) (hv : value ls x s = .ok v)
    (hy : Yields l v z) : ∃ ls', forwardAt x ls (s, i) = .ok (ls', none) ∧
      ls'.map core = ls0.map core ∧ value ls' x (.output i) = .ok z := by
  obtain ⟨l', h1, h2⟩ := getElem?_core hc hl
  obtain ⟨l'', h3, h4⟩ := hy l' h2
  have e : forwardAt x ls (s, i) = .ok (ls.set i l'', none) := by
    unfold forwardAt
    dsimp only
    rw [hv]
    dsimp only
    rw [rd_of_some h1, Exec.bind_ok, h3, Exec.bind_ok]
  refine ⟨ls.set i l'', e, (forwardAt_core e).trans hc, ?_⟩
  have hi : i < ls.length := (List.getElem?_eq_some_iff.mp h1).1
  show (rd (ls.set i l'') i >>= AnyLayer.lastOutput) = .ok z
  rw [rd_of_some (a := l'') (by simp [hi]), Exec.bind_ok, h4]

theorem each_path {x y : List ℝ} {ls0 : List AnyLayer} : ∀ (rest : List Nat) (a : Nat)
    (ls ks : List AnyLayer) (v : List ℝ), ls.map core = ls0.map core →
    rest.map (fun i => ls0[i]?) = ks.map some → value ls x (.output a) = .ok v → YieldsAll ks v y →
    ∃ ls', each (forwardAt x) (((a :: rest).zip rest).map fun p => (Source.output p.1, p.2)) ls
        = .ok (ls', none) ∧
      value ls' x (.output ((a :: rest).getLast (by simp))) = .ok y := by
  intro rest
  induction rest with
  | nil =>
    intro a ls ks v hc hk hv hy
    cases ks with
    | nil => cases hy; exact ⟨ls, rfl, hv⟩
    | cons k ks => simp at hk
  | cons b rest ih =>
    intro a ls ks v hc hk hv hy
    cases ks with
    | nil => simp at hk
    | cons k ks =>
      simp only [List.map_cons, List.cons.injEq] at hk
      cases hy with
      | cons h1 h2 =>
        obtain ⟨ls1, e1, e2, e3⟩ := forwardAt_yields hc hk.1 hv h1
        obtain ⟨ls2, e4, e5⟩ := ih b ls1 ks _ e2 hk.2 e3 h2
        refine ⟨ls2, ?_, ?_⟩
        · show (forwardAt x ls (Source.output a, b) >>= fun r => _) = _
          rw [e1, Exec.bind_ok]
          exact e4
        · rw [List.getLast_cons (by simp)]; exact e5

theorem predict_path {n0 n : Net} (hok : Ok n0.graph) (hl : Lists n0.graph) (hs : Same n0 n)
    {p : List Nat} (hp : IsPath n0.graph p) (hne : p ≠ []) {ks : List AnyLayer}
    (hk : p.map (fun i => n0.layers[i]?) = ks.map some) {x y : List ℝ} (hy : YieldsAll ks x y) :
    ∃ n', n.predict x = .ok (n', .ok y) := by
  cases p with
  | nil => exact absurd rfl hne
  | cons a rest =>
    obtain ⟨e1, e2, e3⟩ := path_facts hok hl hp
    cases ks with
    | nil => simp at hk
    | cons k ks =>
      simp only [List.map_cons, List.cons.injEq] at hk
      cases hy with
      | cons h1 h2 =>
        obtain ⟨ls1, f1, f2, f3⟩ := forwardAt_yields (s := .external) hs.2 hk.1 (x := x) rfl h1
        obtain ⟨ls2, f4, f5⟩ := each_path rest a ls1 ks _ f2 hk.2 f3 h2
        unfold Net.predict
        rw [hs.1, e1, e2, e3]
        dsimp only
        have f6 : each (forwardAt x) (List.map (fun i => (Source.external, i)) [a] ++
            ((a :: rest).zip rest).map fun p => (Source.output p.1, p.2)) n.layers
            = .ok (ls2, none) := by
          show (forwardAt x n.layers (Source.external, a) >>= fun r => _) = _
          rw [f1, Exec.bind_ok]
          exact f4
        rw [f6, Exec.bind_ok]
        dsimp only
        obtain ⟨l, g1, g2⟩ := Exec.bind_eq_ok f5
        rw [g1, Exec.bind_ok, g2]
        exact ⟨_, rfl⟩

end Verif.Net

import Verif.Proofs.Training
import Verif.Proofs.Optimizer

namespace Verif.Training

open Verif.Net Verif.Spec

/-! ### Parameter blocks of a layer -/

theorem setParams_params (a : AnyLayer) : a.setParams a.params = a := by
  cases a <;> rfl

theorem params_setParams (a : AnyLayer) (ps : List (List ℝ)) (h : ps.length = a.params.length) :
    (a.setParams ps).params = ps := by
  cases a
  case dense l =>
    match ps, h with
    | [w, b], _ => rfl
  case conv l =>
    match ps, h with
    | [w, b], _ => rfl
  case rnn f f1 l =>
    match ps, h with
    | [a, b, c, d, e], _ => rfl
  all_goals
    match ps, h with
    | [], _ => rfl

theorem params_setParamGrads (a : AnyLayer) (gs : List (List ℝ)) : (a.setParamGrads gs).params = a.params := by
  unfold AnyLayer.setParamGrads
  split <;> rfl

theorem setParams_setParams (a : AnyLayer) (ps qs : List (List ℝ)) (h : ps.length = a.params.length)
    (h' : qs.length = a.params.length) : (a.setParams ps).setParams qs = a.setParams qs := by
  cases a
  case dense l =>
    match ps, h, qs, h' with
    | [w, b], _, [w', b'], _ => rfl
  case conv l =>
    match ps, h, qs, h' with
    | [w, b], _, [w', b'], _ => rfl
  case rnn f f1 l =>
    match ps, h, qs, h' with
    | [a, b, c, d, e], _, [a', b', c', d', e'], _ => rfl
  all_goals
    match ps, h, qs, h' with
    | [], _, [], _ => rfl

theorem params_of_core {a b : AnyLayer} (h : core a = core b) : a.params = b.params := by
  cases a <;> cases b <;> simp [core, Dense.Layer.mk.injEq, AnyLayer.params] at h ⊢ <;> grind

theorem writeAt_length {k : Opt.Kind} {bs bs' : List (List ℝ)} {i : Nat} {v : ℝ}
    (h : Opt.writeAt k bs i v = .ok bs') : bs'.length = bs.length := by
  obtain ⟨p, _, h⟩ := Exec.bind_eq_ok h
  obtain ⟨_, _, h⟩ := Exec.bind_eq_ok h
  obtain ⟨_, _, h⟩ := Exec.bind_eq_ok h
  exact wr_length h

theorem trainLoop_length {τ : Type} (opt : τ → ℝ → ℝ → τ × ℝ) (k1 k2 : Opt.Kind) :
    ∀ (n i : Nat) (s : Opt.TState τ ℝ),
      (Opt.trainLoop opt k1 k2 n i s).state.params.length = s.params.length := by
  intro n
  induction n with
  | zero => intro i s; rfl
  | succ n ih =>
    intro i s
    unfold Opt.trainLoop
    cases h : Opt.trainOne opt k1 k2 i s with
    | ok s' =>
      refine (ih (i + 1) s').trans ?_
      obtain ⟨_, _, h⟩ := Exec.bind_eq_ok h
      obtain ⟨_, _, h⟩ := Exec.bind_eq_ok h
      obtain ⟨ps, hp, h⟩ := Exec.bind_eq_ok h
      obtain ⟨_, _, h⟩ := Exec.bind_eq_ok h
      cases h
      exact writeAt_length hp
    | throw m => rfl
    | ub => rfl

theorem train_layer_length {τ : Type} (opt : τ → ℝ → ℝ → τ × ℝ) (s : τ) (a : AnyLayer) :
    (a.train opt s).1.2.params.length = a.params.length := by
  unfold AnyLayer.train
  dsimp only
  rw [params_setParamGrads]
  have h : (Opt.trainSelf opt s ⟨a.kind, a.params, a.paramGrads⟩).state.2.params.length
      = a.params.length := trainLoop_length opt _ _ _ _ _
  rw [params_setParams _ _ h, h]

theorem trainLayers_length {τ : Type} (opt : τ → ℝ → ℝ → τ × ℝ) : ∀ (ls : List AnyLayer) (s : τ),
    (trainLayers opt s ls).1.2.map (·.params.length) = ls.map (·.params.length) := by
  intro ls
  induction ls with
  | nil => intro s; rfl
  | cons a as ih =>
    intro s
    have h := train_layer_length opt s a
    unfold trainLayers
    rcases hr : a.train opt s with ⟨⟨s', a'⟩, e⟩
    rw [hr] at h
    cases e with
    | ok u => simp only [List.map_cons, ih, h]
    | throw m => simp only [List.map_cons, h]
    | ub => simp only [List.map_cons, h]

/-! ### Memory -/

theorem put_spec : ∀ (as : List Nat) (bs : List (List ℝ)) (h : Heap), as.length = bs.length →
    as.Nodup → (∀ a ∈ as, a < h.length) →
    (h.put as bs).length = h.length ∧ as.map (h.put as bs).block = bs ∧
      ∀ a, a ∉ as → (h.put as bs).block a = h.block a := by
  intro as
  induction as with
  | nil =>
    intro bs h hl _ _
    match bs, hl with
    | [], _ => exact ⟨rfl, rfl, fun _ _ => rfl⟩
  | cons a as ih =>
    intro bs h hl hnd hlt
    match bs, hl with
    | b :: bs, hl =>
      obtain ⟨hna, hnd'⟩ := List.nodup_cons.mp hnd
      obtain ⟨i1, i2, i3⟩ := ih bs (h.set a b) (by simpa using hl) hnd' (by
        intro x hx
        rw [List.length_set]
        exact hlt x (by simp [hx]))
      refine ⟨i1.trans (by simp), ?_, ?_⟩
      · show (Heap.put (h.set a b) as bs).block a :: as.map (Heap.put (h.set a b) as bs).block = b :: bs
        rw [i2, i3 a hna]
        have := hlt a (by simp)
        simp [Heap.block, List.getD, this]
      · intro x hx
        rw [List.mem_cons, not_or] at hx
        show (Heap.put (h.set a b) as bs).block x = _
        rw [i3 x hx.2]
        simp [Heap.block, List.getD, List.getElem?_set_ne (fun e => hx.1 e.symm)]

/-- The addresses of a model. -/
def addrs (os : List Obj) : List (List Nat) := os.map Obj.addr

theorem store_spec : ∀ (os : List Obj) (ls : List AnyLayer) (h : Heap),
    List.Forall₂ (fun o l => o.addr.length = l.params.length) os ls →
    (addrs os).flatten.Nodup → (∀ a ∈ (addrs os).flatten, a < h.length) →
    (h.store os ls).length = h.length ∧
      List.Forall₂ (fun o l => o.addr.map (h.store os ls).block = l.params) os ls ∧
      ∀ a, a ∉ (addrs os).flatten → (h.store os ls).block a = h.block a := by
  intro os
  induction os with
  | nil =>
    intro ls h hf _ _
    cases hf
    exact ⟨rfl, .nil, fun _ _ => rfl⟩
  | cons o os ih =>
    intro ls h hf hnd hlt
    cases hf with
    | @cons _ l _ ls h1 h2 =>
      have hfl : (addrs (o :: os)).flatten = o.addr ++ (addrs os).flatten := rfl
      rw [hfl] at hnd hlt
      obtain ⟨n1, n2, n3⟩ := List.nodup_append.mp hnd
      obtain ⟨p1, p2, p3⟩ := put_spec o.addr l.params h h1 n1 (fun a ha => hlt a (by simp [ha]))
      obtain ⟨s1, s2, s3⟩ := ih ls (h.put o.addr l.params) h2 n2 (fun a ha => by
        rw [p1]
        exact hlt a (List.mem_append_right _ ha))
      refine ⟨s1.trans p1, .cons ?_ s2, ?_⟩
      · show o.addr.map (Heap.store (h.put o.addr l.params) os ls).block = _
        rw [← p2]
        rw [List.map_inj_left]
        intro a ha
        rw [p2]
        exact s3 a (fun hb => n3 a ha a hb rfl)
      · intro a ha
        rw [hfl, List.mem_append, not_or] at ha
        show (Heap.store (h.put o.addr l.params) os ls).block a = _
        rw [s3 a ha.2, p3 a ha.1]

/-! ### The invariant -/

/-- Every model has the same addresses `A`, which are distinct and valid, and each layer has as many
addresses as parameter blocks. -/
structure Inv (A : List (List Nat)) (w : World) : Prop where
  same : ∀ m ∈ w.models, addrs m.objs = A
  nodup : A.flatten.Nodup
  lt : ∀ a ∈ A.flatten, a < w.heap.length
  count : ∀ m ∈ w.models, ∀ o ∈ m.objs, o.addr.length = o.own.params.length

theorem view_params {A : List (List Nat)} {w : World} (hw : Inv A w) {m : Mod} (hm : m ∈ w.models) :
    (m.view w.heap).layers.map AnyLayer.params = A.map (·.map w.heap.block) := by
  rw [← hw.same m hm]
  show (m.objs.map (Obj.view w.heap)).map _ = (m.objs.map _).map _
  rw [List.map_map, List.map_map, List.map_inj_left]
  intro o ho
  show (o.own.setParams (o.addr.map w.heap.block)).params = o.addr.map w.heap.block
  rw [params_setParams _ _ (by rw [List.length_map, hw.count m hm o ho])]

theorem alloc_spec : ∀ (ls : List AnyLayer) (h : Heap),
    (∃ e, (alloc h ls).1 = h ++ e ∧ e = (ls.map AnyLayer.params).flatten) ∧
    (addrs (alloc h ls).2).flatten = List.range' h.length (ls.map AnyLayer.params).flatten.length ∧
    List.Forall₂ (fun o l => o.own = l ∧ o.addr.length = l.params.length ∧
      o.addr.map (alloc h ls).1.block = l.params) (alloc h ls).2 ls := by
  intro ls
  induction ls with
  | nil => intro h; exact ⟨⟨[], by simp [alloc]⟩, rfl, .nil⟩
  | cons l ls ih =>
    intro h
    obtain ⟨⟨e, i1, ie⟩, i2, i3⟩ := ih (h ++ l.params)
    unfold alloc
    dsimp only
    refine ⟨⟨l.params ++ e, by rw [i1, List.append_assoc], by rw [ie]; rfl⟩, ?_, .cons ⟨rfl, by simp, ?_⟩ i3⟩
    · show (List.range l.params.length).map (h.length + ·) ++ (addrs (alloc (h ++ l.params) ls).2).flatten = _
      rw [i2, List.map_cons, List.flatten_cons, List.length_append, List.length_append, ← List.range'_append_1,
        List.range'_eq_map_range (s := h.length)]
    · rw [i1]
      apply List.ext_getElem
      · simp
      · intro i h1 h2
        simp only [List.map_map, List.getElem_map, List.getElem_range, Function.comp_apply]
        have h3 : i < l.params.length := h2
        rw [Heap.block, List.getD, List.append_assoc, List.getElem?_append_right (by omega),
          List.getElem?_append_left (by omega)]
        simp [h3]

theorem inv_of (n : Net) : Inv (addrs (alloc [] n.layers).2) (World.of n) := by
  obtain ⟨⟨e, h1, h1e⟩, h2, h3⟩ := alloc_spec n.layers []
  refine ⟨?_, ?_, ?_, ?_⟩
  · intro m hm
    obtain rfl := List.mem_singleton.mp hm
    rfl
  · rw [h2]; exact List.nodup_range'
  · intro a ha
    rw [h2, List.mem_range'_1] at ha
    show a < (alloc [] n.layers).1.length
    rw [h1, List.length_append, h1e]
    exact ha.2
  · intro m hm o ho
    obtain rfl := List.mem_singleton.mp hm
    obtain ⟨i, hi, rfl⟩ := List.mem_iff_getElem.mp ho
    have hl := h3.length_eq
    have := (List.forall₂_iff_get.mp h3).2 i hi (by rw [← hl]; exact hi)
    simp only [List.get_eq_getElem] at this
    rw [this.2.1, this.1]

theorem view_of (n : Net) : ((World.of n).models.map (Mod.view (World.of n).heap)) = [n] := by
  obtain ⟨_, _, h3⟩ := alloc_spec n.layers []
  show [(⟨n.graph, (alloc [] n.layers).2.map (Obj.view (alloc [] n.layers).1)⟩ : Net)] = [n]
  have : (alloc [] n.layers).2.map (Obj.view (alloc [] n.layers).1) = n.layers := by
    apply List.ext_getElem
    · rw [List.length_map]; exact h3.length_eq
    · intro i hi hi'
      have := (List.forall₂_iff_get.mp h3).2 i (by simpa using hi) hi'
      simp only [List.get_eq_getElem] at this
      rw [List.getElem_map, Obj.view, this.2.2, this.1]
      exact setParams_params _
  rw [this]

/-- The effect of turning model `k` into `n'`, on that model and on the others. -/
theorem put_world {A : List (List Nat)} {w : World} (hw : Inv A w) {k : Nat} {m : Mod}
    (hm : w.models[k]? = some m) {n' : Net}
    (hn : n'.layers.map (·.params.length) = (m.view w.heap).layers.map (·.params.length)) :
    Inv A (w.put k m n') ∧
    (m.update n').view (w.put k m n').heap = n' ∧
    (∀ m' ∈ w.models, m'.view (w.put k m n').heap
      = ⟨m'.graph, List.zipWith (fun l l' => l.setParams l'.params) (m'.view w.heap).layers n'.layers⟩) ∧
    (w.put k m n').heap.length = w.heap.length ∧
    A.map (·.map (w.put k m n').heap.block) = n'.layers.map AnyLayer.params ∧
    (∀ a, a ∉ A.flatten → (w.put k m n').heap.block a = w.heap.block a) := by
  have hmem : m ∈ w.models := List.mem_of_getElem? hm
  have hA := hw.same m hmem
  have hlen : n'.layers.length = m.objs.length := by
    have := congrArg List.length hn
    simpa [Mod.view] using this
  have hcnt : List.Forall₂ (fun (o : Obj) (l : AnyLayer) => o.addr.length = l.params.length) m.objs n'.layers := by
    rw [List.forall₂_iff_get]
    refine ⟨hlen.symm, ?_⟩
    intro i h1 h2
    have h3 : (n'.layers.map (·.params.length))[i]? = ((m.view w.heap).layers.map (·.params.length))[i]? := by
      rw [hn]
    simp only [Mod.view, List.map_map, List.getElem?_map, List.getElem?_eq_getElem h1,
      List.getElem?_eq_getElem h2, Option.map_some, Option.some.injEq, Function.comp_apply] at h3
    simp only [List.get_eq_getElem]
    rw [h3, Obj.view, params_setParams, List.length_map]
    rw [List.length_map]
    exact hw.count m hmem _ (List.getElem_mem h1)
  obtain ⟨s1, s2, s3⟩ := store_spec m.objs n'.layers w.heap hcnt (by rw [hA]; exact hw.nodup)
    (by rw [hA]; exact hw.lt)
  have hu : addrs (m.update n').objs = A := by
    rw [← hA]
    apply List.ext_getElem
    · simp [addrs, Mod.update, hlen]
    · intro i h1 h2
      simp [addrs, Mod.update]
  have hblk : A.map (·.map (w.put k m n').heap.block) = n'.layers.map AnyLayer.params := by
    rw [← hA]
    apply List.ext_getElem
    · simp [addrs, hlen]
    · intro i h1 h2
      have h3 : i < m.objs.length := by simpa [addrs] using h1
      have := (List.forall₂_iff_get.mp s2).2 i h3 (by omega)
      simpa [addrs, World.put] using this
  have hview : ∀ m' ∈ w.models, m'.view (w.put k m n').heap
      = ⟨m'.graph, List.zipWith (fun l l' => l.setParams l'.params) (m'.view w.heap).layers n'.layers⟩ := by
    intro m' hm'
    have hA' := hw.same m' hm'
    have hl' : m'.objs.length = m.objs.length := by
      have := congrArg List.length (hA'.trans hA.symm)
      simpa [addrs] using this
    show (⟨m'.graph, m'.objs.map (Obj.view (w.put k m n').heap)⟩ : Net) = _
    congr 1
    apply List.ext_getElem
    · simp [Mod.view, hlen, hl']
    · intro i h1 h2
      have h3 : i < m'.objs.length := by simpa using h1
      have h4 : i < n'.layers.length := by omega
      rw [List.getElem_map, List.getElem_zipWith]
      have hb : m'.objs[i].addr.map (w.put k m n').heap.block = n'.layers[i].params := by
        have : (A.map (·.map (w.put k m n').heap.block))[i]? = (n'.layers.map AnyLayer.params)[i]? := by
          rw [hblk]
        rw [← hA'] at this
        simpa [addrs, h3, h4] using this
      have hc := hw.count m' hm' m'.objs[i] (List.getElem_mem h3)
      simp only [Mod.view, List.getElem_map]
      rw [Obj.view, hb, Obj.view, setParams_setParams]
      · rw [List.length_map]; exact hc
      · rw [← hb, List.length_map]; exact hc
  refine ⟨⟨?_, hw.nodup, ?_, ?_⟩, ?_, hview, s1, hblk, ?_⟩
  · intro m' hm'
    rcases List.mem_or_eq_of_mem_set hm' with h | rfl
    · exact hw.same m' h
    · exact hu
  · intro a ha
    show a < (w.heap.store m.objs n'.layers).length
    rw [s1]
    exact hw.lt a ha
  · intro m' hm' o ho
    rcases List.mem_or_eq_of_mem_set hm' with h | rfl
    · exact hw.count m' h o ho
    · obtain ⟨i, hi, rfl⟩ := List.mem_iff_getElem.mp ho
      have h1 : i < m.objs.length := by simp [Mod.update] at hi; omega
      have := (List.forall₂_iff_get.mp hcnt).2 i h1 (by omega)
      simpa [Mod.update] using this
  · have : (m.update n').objs.map (Obj.view (w.put k m n').heap) = n'.layers := by
      apply List.ext_getElem
      · simp [Mod.update, hlen]
      · intro i h1 h2
        have h3 : i < m.objs.length := by omega
        have := (List.forall₂_iff_get.mp s2).2 i h3 h2
        simp only [List.get_eq_getElem] at this
        simp only [Mod.update, List.getElem_map, List.getElem_zipWith, Obj.view]
        have h5 : m.objs[i].addr.map (w.put k m n').heap.block = n'.layers[i].params := this
        rw [h5]
        exact setParams_params _
    show (⟨n'.graph, (m.update n').objs.map (Obj.view (w.put k m n').heap)⟩ : Net) = n'
    rw [this]
  · intro a ha
    exact s3 a (by rw [hA]; exact ha)

/-- Calls other than `train` leave the memory as it is. -/
theorem put_same {A : List (List Nat)} {w : World} (hw : Inv A w) {k : Nat} {m : Mod}
    (hm : w.models[k]? = some m) {n' : Net}
    (hn : n'.layers.map AnyLayer.params = (m.view w.heap).layers.map AnyLayer.params) :
    (w.put k m n').heap = w.heap := by
  have hl : n'.layers.map (·.params.length) = (m.view w.heap).layers.map (·.params.length) := by
    have := congrArg (List.map List.length) hn
    simpa [Function.comp_def] using this
  obtain ⟨_, _, _, h1, h2, h3⟩ := put_world hw hm hl
  rw [hn, view_params hw (List.mem_of_getElem? hm)] at h2
  apply List.ext_getElem h1
  intro a ha ha'
  have hb : (w.put k m n').heap.block a = w.heap.block a := by
    by_cases h : a ∈ A.flatten
    · obtain ⟨as, hs, has⟩ := List.mem_flatten.mp h
      have h4 := (List.map_inj_left.mp h2) as hs
      exact (List.map_inj_left.mp h4) a has
    · exact h3 a h
  simpa [Heap.block, List.getD, ha, ha'] using hb

theorem call_params {n n' : Net} {c : Call} (h : n.call c = .ok n') :
    n'.layers.map AnyLayer.params = n.layers.map AnyLayer.params := by
  have hs : Same n n' := run_same [c] (by simp [Net.run, h])
  have := hs.2
  apply List.ext_getElem
  · simpa using congrArg List.length this
  · intro i h1 h2
    have h3 : (n'.layers.map core)[i]? = (n.layers.map core)[i]? := by rw [this]
    simp only [List.length_map] at h1 h2
    simp only [List.getElem?_map, List.getElem?_eq_getElem h1, List.getElem?_eq_getElem h2,
      Option.map_some, Option.some.injEq] at h3
    simp only [List.getElem_map]
    exact params_of_core h3

theorem act_inv {τ : Type} {A : List (List Nat)} {w w' : World} (hw : Inv A w) {a : Action τ}
    (h : w.act a = .ok w') : Inv A w' := by
  cases a with
  | copy k =>
    obtain ⟨m, hm, h⟩ := Exec.bind_eq_ok h
    cases h
    have hmem : m ∈ w.models := List.mem_of_getElem? (rd_eq_ok hm)
    have hc : m.copy = m := by
      show (⟨m.graph, m.objs.map Obj.clone⟩ : Mod) = m
      have : m.objs.map Obj.clone = m.objs := by
        rw [show Obj.clone = id from rfl, List.map_id]
      rw [this]
    refine ⟨?_, hw.nodup, hw.lt, ?_⟩
    · intro m' hm'
      rcases List.mem_append.mp hm' with h | h
      · exact hw.same m' h
      · obtain rfl := List.mem_singleton.mp h
        rw [hc]
        exact hw.same m hmem
    · intro m' hm'
      rcases List.mem_append.mp hm' with h | h
      · exact hw.count m' h
      · obtain rfl := List.mem_singleton.mp h
        rw [hc]
        exact hw.count m hmem
  | call k c =>
    obtain ⟨m, hm, h⟩ := Exec.bind_eq_ok h
    obtain ⟨n, hn, h⟩ := Exec.bind_eq_ok h
    cases h
    have := congrArg (List.map List.length) (call_params hn)
    exact (put_world hw (rd_eq_ok hm) (by simpa [Function.comp_def] using this)).1
  | train k opt s =>
    obtain ⟨m, hm, h⟩ := Exec.bind_eq_ok h
    cases h
    exact (put_world hw (rd_eq_ok hm) (trainLayers_length opt _ s)).1

theorem run_inv {τ : Type} {A : List (List Nat)} : ∀ (as : List (Action τ)) {w w' : World}, Inv A w →
    w.run as = .ok w' → Inv A w' := by
  intro as
  induction as with
  | nil => intro w w' hw h; cases h; exact hw
  | cons a as ih =>
    intro w w' hw h
    obtain ⟨w1, h1, h2⟩ := Exec.bind_eq_ok h
    exact ih (act_inv hw h1) h2

end Verif.Training

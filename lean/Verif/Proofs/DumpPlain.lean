import Verif.Proofs.DumpFits
import Verif.Props.Json

/-
The JSON of a model can be read back from its text, and loading a model from it.
-/

namespace Verif.Dump

open Verif.Js Verif.Text Verif.Slide Verif.Spec Verif.Props

variable {N : Type}

theorem plain_num {io : NumText N} {x : N} (h : ∃ neg m, io.text x = floatText neg m) : Plain (num io x) := by
  obtain ⟨neg, m, h⟩ := h
  unfold num
  rw [h]
  exact C53_scalars_partial.2.2.1 neg m

theorem plain_string {v : List Char} (h : '"' ∉ v) : Plain (ofString v) := C53_scalars_partial.1 v h
theorem plain_int (i : Int) : Plain (ofInt i) := C53_scalars_partial.2.1 i

theorem not_empty_leaf_int (i : Int) : ofInt i ≠ .leaf [] .none := by
  intro h
  rw [ofInt_eq] at h
  simp at h

theorem plain_ints {ns : List Nat} (h : ns ≠ []) : Plain (sizesJson ns) := by
  unfold sizesJson
  refine C53_nested_partial.1 _ (by simpa using h) ?_ ?_
  · intro t ht
    obtain ⟨n, _, rfl⟩ := List.mem_map.mp ht
    exact plain_int n
  · intro he
    obtain ⟨n, _, h2⟩ := List.mem_map.mp (List.mem_of_getLast? he)
    exact not_empty_leaf_int _ h2

theorem plain_listOf {ts : List Json} (h : ts ≠ []) (hp : ∀ t ∈ ts, Plain t) (hl : ∀ t ∈ ts, t ≠ .leaf [] .none) :
    Plain (listOf ts) := by
  cases ts with
  | nil => exact absurd rfl h
  | cons a ts =>
    refine C53_nested_partial.1 _ h hp ?_
    intro he
    exact hl _ (List.mem_of_getLast? he) rfl

theorem listOf_not_leaf (ts : List Json) (v : List Char) (ty : Ty) : listOf ts ≠ .leaf v ty := by
  cases ts <;> simp [listOf]

theorem plain_shapes {ss : List Shape3} (h : ss ≠ []) : Plain (shapesTree ss) := by
  unfold shapesTree
  refine plain_listOf (by simpa using h) ?_ ?_
  · intro t ht
    obtain ⟨s, _, rfl⟩ := List.mem_map.mp ht
    exact plain_ints (by simp)
  · intro t ht
    obtain ⟨s, _, rfl⟩ := List.mem_map.mp ht
    simp [sizesJson]

theorem plain_nest {io : NumText N} {w : List N} (hw : ∀ x ∈ w, ∃ neg m, io.text x = floatText neg m) :
    ∀ (ds : List Nat) (off : Nat), (∀ d ∈ ds, 0 < d) → off + ds.prod ≤ w.length →
      Plain (nestTree io w ds off) ∧ nestTree io w ds off ≠ .leaf [] .none := by
  intro ds
  induction ds with
  | nil =>
    intro off _ h
    simp only [List.prod_nil] at h
    unfold nestTree
    have : w[off]? = some w[off] := List.getElem?_eq_getElem (by omega)
    rw [this]
    refine ⟨plain_num (hw _ (List.getElem_mem _)), ?_⟩
    intro he
    unfold num leafOf at he
    simp at he
  | cons d ds ih =>
    intro off hd h
    simp only [List.prod_cons] at h
    unfold nestTree
    have hdp := hd d (by simp)
    have hi : ∀ t ∈ (List.range d).map (fun i => nestTree io w ds (off + i * ds.prod)),
        Plain t ∧ t ≠ .leaf [] .none := by
      intro t ht
      obtain ⟨i, hi, rfl⟩ := List.mem_map.mp ht
      rw [List.mem_range] at hi
      refine ih _ (fun x hx => hd x (by simp [hx])) ?_
      have : (i + 1) * ds.prod ≤ d * ds.prod := Nat.mul_le_mul_right _ hi
      rw [Nat.succ_mul] at this
      omega
    refine ⟨plain_listOf ?_ (fun t ht => (hi t ht).1) (fun t ht => (hi t ht).2), listOf_not_leaf _ _ _⟩
    simp
    omega

theorem typeName_quote (o : Own N) : '"' ∉ typeName o := by
  cases o <;> simp [typeName]

/-- A dictionary with concrete keys. -/
theorem plain_dict {m : List (Key × Json)} (h : m ≠ []) (hk : ∀ k ∈ m.map Prod.fst, '"' ∉ k)
    (hv : ∀ v ∈ m.map Prod.snd, Plain v) (hs : (m.map Prod.fst).Pairwise fun a b => keyLt a b = true) :
    Plain (.dict m) := by
  refine C53_nested_partial.2 m h ?_ ?_ ?_
  · exact fun p hp => hk _ (List.mem_map_of_mem hp)
  · exact fun p hp => hv _ (List.mem_map_of_mem hp)
  · exact List.pairwise_map.mp hs

variable [Zero N] [One N] [Sub N] [Div N] [DecidableEq N]

/-- The dump of a layer with positive sizes, a name without quotes and finite numbers is plain. -/
theorem plain_dump {io : NumText N} {l : Layer N} (hl : Fits l) (hp : Writable io l) :
    ∃ m, dump io l = .ok (.dict m) ∧ Plain (.dict m) := by
  have ht := plain_string (typeName_quote l.own)
  have hn := plain_string hp.name
  have hi := plain_shapes hl.inputs
  have ho := plain_shapes hl.outputs
  have hx := hp.numbers
  have hd := hp.positive
  cases e : l.own
  case relu | elu | softmax | tanh | sigmoid | linear | concat | cce =>
    refine ⟨_, dump_bare io (by rw [e]; trivial), plain_dict (by simp [baseFields]) ?_ ?_ ?_⟩
    · simp only [baseFields, List.nil_append, List.map_cons, List.map_nil]; decide
    · simp [baseFields, hi, hn, ho, ht]
    · simp only [baseFields, List.nil_append, List.map_cons, List.map_nil]; decide
  case mse t =>
    rw [e] at hx
    refine ⟨_, dump_rate io (y := t) (.inr e), plain_dict (by simp [baseFields]) ?_ ?_ ?_⟩
    · simp only [baseFields, List.cons_append, List.nil_append, List.map_cons, List.map_nil]; decide
    · have : Plain (.dict [(kTolerance, num io t)]) :=
        plain_dict (by simp) (by simp only [List.map_cons, List.map_nil]; decide)
          (by simpa using plain_num (hx t (by simp [Spec.rates, parameters]))) (by simp)
      rw [e] at ht ⊢
      simp [baseFields, hi, hn, ho, ht, this]
    · simp only [baseFields, List.cons_append, List.nil_append, List.map_cons, List.map_nil]; decide
  case dropout p c =>
    rw [e] at hx
    refine ⟨_, dump_rate io (.inl e), plain_dict (by simp [baseFields]) ?_ ?_ ?_⟩
    · simp only [baseFields, List.cons_append, List.nil_append, List.map_cons, List.map_nil]; decide
    · have : Plain (.dict [(kDrop, num io p)]) :=
        plain_dict (by simp) (by simp only [List.map_cons, List.map_nil]; decide)
          (by simpa using plain_num (hx p (by simp [Spec.rates, parameters]))) (by simp)
      rw [e] at ht ⊢
      simp [baseFields, hi, hn, ho, ht, this]
    · simp only [baseFields, List.cons_append, List.nil_append, List.map_cons, List.map_nil]; decide
  case maxPool g =>
    refine ⟨_, dump_pool io (.inl e), plain_dict (by simp [baseFields]) ?_ ?_ ?_⟩
    · simp only [baseFields, List.cons_append, List.nil_append, List.map_cons, List.map_nil]; decide
    · have : Plain (.dict (poolOthers g)) := plain_dict (by simp [poolOthers])
        (by simp only [poolOthers, List.map_cons, List.map_nil]; decide)
        (by simp [poolOthers, plain_ints]) (by simp only [poolOthers, List.map_cons, List.map_nil]; decide)
      simp [baseFields, hi, hn, ho, ht, this]
    · simp only [baseFields, List.cons_append, List.nil_append, List.map_cons, List.map_nil]; decide
  case avgPool g =>
    refine ⟨_, dump_pool io (.inr e), plain_dict (by simp [baseFields]) ?_ ?_ ?_⟩
    · simp only [baseFields, List.cons_append, List.nil_append, List.map_cons, List.map_nil]; decide
    · have : Plain (.dict (poolOthers g)) := plain_dict (by simp [poolOthers])
        (by simp only [poolOthers, List.map_cons, List.map_nil]; decide)
        (by simp [poolOthers, plain_ints]) (by simp only [poolOthers, List.map_cons, List.map_nil]; decide)
      simp [baseFields, hi, hn, ho, ht, this]
    · simp only [baseFields, List.cons_append, List.nil_append, List.map_cons, List.map_nil]; decide
  case dense w b =>
    have hf := hl.own
    rw [e] at hx hd hf
    simp only [parameters, Spec.rates] at hx hd
    refine ⟨_, dump_dense io hl e, plain_dict (by simp [baseFields]) ?_ ?_ ?_⟩
    · simp only [baseFields, List.cons_append, List.nil_append, List.map_cons, List.map_nil]; decide
    · have hw := (plain_nest (w := w) (fun x hw => hx x (by simp [hw])) [firstSize l.fields.outShapes,
        firstSize l.fields.inShapes] 0 (by simpa using ⟨hd.2, hd.1⟩) (by rw [prod_two, hf.1]; omega)).1
      have hb := (plain_nest (w := b) (fun x hw => hx x (by simp [hw])) [firstSize l.fields.outShapes] 0
        (by simpa using hd.2) (by rw [prod_one, hf.2]; omega)).1
      simp [baseFields, hi, hn, ho, ht, hw, hb]
    · simp only [baseFields, List.cons_append, List.nil_append, List.map_cons, List.map_nil]; decide
  case conv g w b =>
    have hf := hl.own
    rw [e] at hx hd hf
    simp only [parameters, Spec.rates] at hx hd
    obtain ⟨sh, rest, his⟩ := firstSize_pos_shape hl.inputs
    have hlen := hf.1 sh (by rw [his]; rfl)
    have hc := hd.2.2.2 sh (by rw [his]; rfl)
    refine ⟨_, dump_conv io hl e his, plain_dict (by simp [baseFields]) ?_ ?_ ?_⟩
    · simp only [baseFields, List.cons_append, List.nil_append, List.map_cons, List.map_nil]; decide
    · have hw := (plain_nest (w := w) (fun x hw => hx x (by simp [hw])) [g.kernel.h, g.kernel.w, sh.c, g.filters] 0
        (by simpa using ⟨hd.1, hd.2.1, hc, hd.2.2.1⟩) (by rw [prod_four, hlen]; omega)).1
      have hb := (plain_nest (w := b) (fun x hw => hx x (by simp [hw])) [g.filters] 0
        (by simpa using hd.2.2.1) (by rw [prod_one, hf.2.1]; omega)).1
      have ho' : Plain (.dict (convOthers g)) := plain_dict (by simp [convOthers])
        (by simp only [convOthers, List.map_cons, List.map_nil]; decide)
        (by simp [convOthers, plain_ints, plain_int]) (by simp only [convOthers, List.map_cons, List.map_nil]; decide)
      simp [baseFields, hi, hn, ho, ht, hw, hb, ho']
    · simp only [baseFields, List.cons_append, List.nil_append, List.map_cons, List.map_nil]; decide
  case rnn r =>
    have hf := hl.own
    rw [e] at hx hd hf
    simp only [parameters, Spec.rates] at hx hd
    obtain ⟨h0, h1, h2, h3, h4, h5, _⟩ := hf
    have hin := hl.inSize
    obtain ⟨d1, d2, d3⟩ := hd
    rw [← hin] at d1
    rw [← h0] at d2
    refine ⟨_, dump_rnn io hl e, plain_dict (by simp [baseFields]) ?_ ?_ ?_⟩
    · simp only [baseFields, List.cons_append, List.nil_append, List.map_cons, List.map_nil]; decide
    · have hw1 := plain_nest (w := r.wih) (fun x hw => hx x (by simp [hw])) [r.hidden, l.fields.inSize] 0
        (by simpa using ⟨d3, d1⟩) (by rw [prod_two, h1, Nat.mul_comm]; omega)
      have hw2 := plain_nest (w := r.whh) (fun x hw => hx x (by simp [hw])) [r.hidden, r.hidden] 0
        (by simpa using d3) (by rw [prod_two, h2]; omega)
      have hw3 := plain_nest (w := r.who) (fun x hw => hx x (by simp [hw])) [l.fields.outSize, r.hidden] 0
        (by simpa using ⟨d2, d3⟩) (by rw [prod_two, h3, Nat.mul_comm]; omega)
      have hb1 := plain_nest (w := r.bh) (fun x hw => hx x (by simp [hw])) [r.hidden] 0
        (by simpa using d3) (by rw [prod_one, h4]; omega)
      have hb2 := plain_nest (w := r.bo) (fun x hw => hx x (by simp [hw])) [l.fields.outSize] 0
        (by simpa using d2) (by rw [prod_one, h5]; omega)
      have hw : Plain (.list [nestTree io r.wih [r.hidden, l.fields.inSize] 0, nestTree io r.whh [r.hidden, r.hidden] 0,
          nestTree io r.who [l.fields.outSize, r.hidden] 0]) :=
        C53_nested_partial.1 _ (by simp) (by simp [hw1.1, hw2.1, hw3.1]) (by simpa using hw3.2)
      have hb : Plain (.list [nestTree io r.bh [r.hidden] 0, nestTree io r.bo [l.fields.outSize] 0]) :=
        C53_nested_partial.1 _ (by simp) (by simp [hb1.1, hb2.1]) (by simpa using hb2.2)
      have ho' : Plain (.dict (rnnOthers r)) := plain_dict (by simp [rnnOthers])
        (by simp only [rnnOthers, List.map_cons, List.map_nil]; decide)
        (by simp [rnnOthers, plain_int]) (by simp only [rnnOthers, List.map_cons, List.map_nil]; decide)
      simp [baseFields, hi, hn, ho, ht, hw, hb, ho']
    · simp only [baseFields, List.cons_append, List.nil_append, List.map_cons, List.map_nil]; decide

/-- The saved item of a layer. -/
def saved (io : NumText N) (l : Layer N) : Json :=
  match dump io l with
  | .ok j => j
  | _ => .none

omit [Zero N] [One N] [Sub N] [Div N] [DecidableEq N] in
theorem saved_eq {io : NumText N} {l : Layer N} {j : Json} (h : dump io l = .ok j) : saved io l = j := by
  unfold saved
  rw [h]

omit [Zero N] [One N] [Sub N] [Div N] [DecidableEq N] in
theorem dumpItem_ok {io : NumText N} {m : Model N} (h : ∀ l ∈ m.layers, dump io l = .ok (saved io l)) :
    dumpItem io m = .ok (.dict [(kLayers, listOf (m.layers.map (saved io))), (kName, ofString m.name)]) := by
  have hloop := append_loop (n := m.layers.length)
    (g := fun i => rd m.layers i >>= fun l => dump io l)
    (f := fun i => ((m.layers[i]?).map (saved io)).getD .none) (by
      intro i hi
      have e : m.layers[i]? = some m.layers[i] := List.getElem?_eq_getElem hi
      rw [rd_of_some e, Exec.bind_ok, h _ (List.getElem_mem hi), e]
      rfl)
  have e : (List.range m.layers.length).map (fun i => ((m.layers[i]?).map (saved io)).getD .none) =
      m.layers.map (saved io) := by
    apply List.ext_getElem?
    intro i
    rw [List.getElem?_map, List.getElem?_map]
    by_cases hi : i < m.layers.length
    · rw [List.getElem?_range hi, List.getElem?_eq_getElem hi]
      simp [List.getElem?_eq_getElem hi]
    · rw [List.getElem?_eq_none (by simpa using hi), List.getElem?_eq_none (by simpa using hi)]
      rfl
  rw [e] at hloop
  unfold dumpItem
  have hcongr : (forUp m.layers.length Json.none fun i acc => do
      let l ← rd m.layers i
      let d ← dump io l
      append acc d) = .ok (listOf (m.layers.map (saved io))) := by
    rw [← hloop]
    congr 1
    funext i acc
    cases rd m.layers i <;> rfl
  show (Exec.ok _ >>= _) = _
  rw [Exec.bind_ok, hcongr]
  rfl

theorem loadItem_ok {io : NumText N} {m m' : Model N} (hm : ∀ l ∈ m.layers, Fits l)
    (ht : m'.layers.map (fun l => typeName l.own) = m.layers.map (fun l => typeName l.own)) :
    ∃ r, loadItem io m' (.dict [(kLayers, listOf (m.layers.map (saved io))), (kName, ofString m.name)]) = .ok r ∧
      r.name = m.name ∧ List.Forall₂ (Restored io) m.layers r.layers := by
  have hlen : m'.layers.length = m.layers.length := by
    have := congrArg List.length ht
    simpa using this
  unfold loadItem
  rw [atKey_eq (k := kName) (v := ofString m.name) rfl, Exec.bind_ok]
  have hl : leafText (ofString m.name) = .ok m.name := rfl
  rw [hl, Exec.bind_ok]
  obtain ⟨a, h1, h2, h3, h4⟩ := forUp_returns (n := m'.layers.length) (s := m'.layers)
    (body := fun i ls => do
      let v ← atKey (.dict [(kLayers, listOf (m.layers.map (saved io))), (kName, ofString m.name)]) kLayers
      let d ← atIdx v i
      let l ← rd ls i
      let l ← load io l d
      wr ls i l)
    (fun i ls => ls.length = m'.layers.length ∧ (∀ k, i ≤ k → ls[k]? = m'.layers[k]?) ∧
      ∀ k < i, ∀ s l, m.layers[k]? = some s → ls[k]? = some l → Restored io s l)
    ⟨rfl, fun _ _ => rfl, fun k hk => absurd hk (Nat.not_lt_zero k)⟩ (by
      rintro i ls hi ⟨g1, g2, g3⟩
      have hi' : i < m.layers.length := by omega
      have es : m.layers[i]? = some m.layers[i] := List.getElem?_eq_getElem hi'
      have et : ls[i]? = some m'.layers[i] := by rw [g2 i (Nat.le_refl i), List.getElem?_eq_getElem hi]
      have hty : typeName m'.layers[i].own = typeName m.layers[i].own := by
        have := congrArg (fun l => l[i]?) ht
        simpa [List.getElem?_eq_getElem hi, List.getElem?_eq_getElem hi'] using this
      have hfit := hm _ (List.getElem_mem hi')
      obtain ⟨mm, hd, _⟩ := dump_type io hfit
      obtain ⟨l, hl1, hl2, _⟩ := load_dump io hfit hty
      rw [hd, Exec.bind_ok] at hl1
      refine ⟨ls.set i l, ?_, ?_, ?_, ?_⟩
      · beta_reduce
        rw [atKey_eq (k := kLayers) (v := listOf (m.layers.map (saved io))) rfl, Exec.bind_ok,
          atIdx_list (t := .dict mm) (by rw [List.getElem?_map, es, Option.map_some, saved_eq hd]), Exec.bind_ok,
          rd_of_some et, Exec.bind_ok, hl1, Exec.bind_ok, wr_ok (by omega)]
      · rw [List.length_set, g1]
      · intro k hk
        rw [List.getElem?_set_ne (by omega), g2 k (by omega)]
      · intro k hk s l' hs' hl'
        by_cases hki : k = i
        · subst hki
          rw [List.getElem?_set_self (by omega)] at hl'
          rw [es] at hs'
          cases hl'
          cases hs'
          exact hl2
        · rw [List.getElem?_set_ne (by omega)] at hl'
          exact g3 k (by omega) s l' hs' hl')
  rw [h1, Exec.bind_ok]
  refine ⟨_, rfl, rfl, ?_⟩
  rw [List.forall₂_iff_get]
  refine ⟨by show m.layers.length = a.length; omega, ?_⟩
  intro k hk1 hk2
  exact h4 k (by omega) _ _ (by simp) (by simp)

end Verif.Dump

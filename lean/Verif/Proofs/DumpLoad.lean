import Verif.Proofs.Dump

namespace Verif.Dump

open Verif.Js Verif.Text Verif.Slide Verif.Spec

variable {N : Type}

/-- The item of the shapes. -/
def shapesTree (ss : List Shape3) : Json := listOf (ss.map fun s => sizesJson [s.h, s.w, s.c])

theorem asSizes_two {a b : Nat} (ha : Word a) (hb : Word b) : asSizes (sizesJson [a, b]) = .ok [a, b] := by
  unfold sizesJson asSizes
  simp only [List.map_cons, List.map_nil, List.length_cons, List.length_nil, forUp, forFrom]
  simp only [rd, List.getElem?_cons_zero, List.getElem?_cons_succ, Nat.zero_add, Exec.bind_ok, asSize_ofInt ha,
    asSize_ofInt hb, List.nil_append, List.cons_append]

theorem loadPair_ok {m mo : List (Key × Json)} {k : Key} {a b : Nat} (ha : Word a) (hb : Word b)
    (h1 : mapFind m kOthers = some (.dict mo)) (h2 : mapFind mo k = some (sizesJson [a, b])) :
    loadPair (.dict m) k = .ok ⟨a, b⟩ := by
  unfold loadPair
  rw [atKey_eq h1, Exec.bind_ok, atKey_eq h2, Exec.bind_ok, asSizes_two ha hb]
  rfl

theorem other_ok {m mo : List (Key × Json)} {k : Key} {v : Json} (h1 : mapFind m kOthers = some (.dict mo))
    (h2 : mapFind mo k = some v) : other (.dict m) k = .ok v := by
  unfold other
  rw [atKey_eq h1, Exec.bind_ok, atKey_eq h2]

theorem prod_two (a b : Nat) : [a, b].prod = a * b := by simp
theorem prod_one (a : Nat) : [a].prod = a := by simp
theorem prod_four (a b c d : Nat) : [a, b, c, d].prod = a * b * c * d := by
  simp only [List.prod_cons, List.prod_nil]
  ring

/-- The fields that every dump has. -/
def baseFields (type : List Char) (f : Fields) (post : List (Key × Json)) (rest : List (Key × Json)) :
    List (Key × Json) :=
  (kInput, shapesTree f.inShapes) :: (kName, ofString f.name) ::
    (post ++ (kOutput, shapesTree f.outShapes) :: (kType, ofString type) :: rest)

/-- The fields after loading. -/
def loaded (f : Fields) : Fields :=
  ⟨f.name, f.inShapes, f.outShapes, firstSize f.inShapes, firstSize f.outShapes⟩

theorem firstSize_nonempty {ss : List Shape3} (h : ss ≠ []) : ∃ s rest, ss = s :: rest ∧ firstSize ss = s.size := by
  cases ss with
  | nil => exact absurd rfl h
  | cons s rest => exact ⟨s, rest, rfl, rfl⟩

theorem feedforward_ok {l : Layer N} {f : Fields} (hi : f.inShapes ≠ []) (ho : f.outShapes ≠ []) :
    feedforward l f = .ok { l with fields := f, outLen := firstSize f.outShapes, inLen := firstSize f.inShapes } := by
  unfold feedforward
  rw [size0_eq ho, Exec.bind_ok, size0_eq hi, Exec.bind_ok]

/-! ### Dense -/

theorem dump_dense (io : NumText N) {l : Layer N} {w b : List N} (hl : Fits l) (ho : l.own = .dense w b) :
    dump io l = .ok (.dict ((kBiases, nestTree io b [firstSize l.fields.outShapes] 0) ::
      baseFields (typeName l.own) l.fields []
        [(kWeights, nestTree io w [firstSize l.fields.outShapes, firstSize l.fields.inShapes] 0)])) := by
  have hf := hl.own
  rw [ho] at hf
  unfold dump
  rw [dumpBase_ok, Exec.bind_ok, ho]
  show dumpDense io _ _ _ _ = _
  unfold dumpDense
  rw [size0_eq hl.outputs, Exec.bind_ok, size0_eq hl.inputs, Exec.bind_ok,
    nestJson_ok io w _ 0 (by rw [prod_two, hf.1]; omega), Exec.bind_ok,
    nestJson_ok io b _ 0 (by rw [prod_one, hf.2]; omega), Exec.bind_ok]
  rfl

variable [Zero N] [One N] [Sub N] [Div N] [DecidableEq N]

theorem load_dense (io : NumText N) {s t : Layer N}
    {w b w' b' : List N} (hs : Fits s) (ho : s.own = .dense w b) (hto : t.own = .dense w' b') :
    (dump io s >>= load io t) = .ok ⟨loaded s.fields, .dense (w.map (trip io)) (b.map (trip io)),
      firstSize s.fields.outShapes, firstSize s.fields.inShapes,
      [firstSize s.fields.outShapes * firstSize s.fields.inShapes, firstSize s.fields.outShapes]⟩ := by
  have hf := hs.own
  rw [ho] at hf
  rw [dump_dense io hs ho, Exec.bind_ok]
  unfold load
  rw [loadBase_ok (f := s.fields) hs.inputs hs.outputs hs.words rfl rfl rfl (by rw [ho, hto]; rfl), Exec.bind_ok]
  rw [hto]
  show (feedforward t (loaded s.fields) >>= _) = _
  rw [feedforward_ok (l := t) (f := loaded s.fields) hs.inputs hs.outputs, Exec.bind_ok]
  unfold loadDense
  show (size0 s.fields.outShapes >>= _) = _
  rw [size0_eq hs.outputs, Exec.bind_ok]
  show (size0 s.fields.inShapes >>= _) = _
  rw [size0_eq hs.inputs, Exec.bind_ok]
  rw [loadParams_ok io (src := w) rfl rfl (by rw [prod_two, hf.1]) (by rw [resize_length, prod_two]), Exec.bind_ok]
  rw [loadParams_ok io (src := b) rfl rfl (by rw [prod_one, hf.2]) (by rw [resize_length, prod_one]), Exec.bind_ok]
  rfl

/-! ### Convolutional -/

/-- `others` of a convolutional layer. -/
def convOthers (g : ConvGeo) : List (Key × Json) :=
  [(kKernel, sizesJson [g.kernel.h, g.kernel.w]), (kFilters, ofInt g.filters),
    (kPadding, sizesJson [g.padding.h, g.padding.w]), (kStride, sizesJson [g.stride.h, g.stride.w])]

theorem dump_conv (io : NumText N) {l : Layer N} {g : ConvGeo} {w b : List N} {s : Shape3} {rest : List Shape3}
    (hl : Fits l) (ho : l.own = .conv g w b) (hi : l.fields.inShapes = s :: rest) :
    dump io l = .ok (.dict ((kBiases, nestTree io b [g.filters] 0) ::
      baseFields (typeName l.own) l.fields [(kOthers, .dict (convOthers g))]
        [(kWeights, nestTree io w [g.kernel.h, g.kernel.w, s.c, g.filters] 0)])) := by
  have hf := hl.own
  rw [ho] at hf
  have hw := hf.1 s (by rw [hi]; rfl)
  unfold dump
  rw [dumpBase_ok, Exec.bind_ok, ho]
  show dumpConv io _ _ _ _ _ = _
  unfold dumpConv
  rw [hi]
  show (Exec.ok s >>= _) = _
  rw [Exec.bind_ok,
    nestJson_ok io w _ 0 (by rw [prod_four, hw]; omega), Exec.bind_ok,
    nestJson_ok io b _ 0 (by rw [prod_one, hf.2.1]; omega), Exec.bind_ok]
  unfold baseFields
  rw [hi]
  rfl

theorem load_conv (io : NumText N) {s t : Layer N} {g g' : ConvGeo}
    {w b w' b' : List N} {sh : Shape3} {rest : List Shape3} (hs : Fits s) (ho : s.own = .conv g w b)
    (hi : s.fields.inShapes = sh :: rest) (hto : t.own = .conv g' w' b') :
    (dump io s >>= load io t) = .ok ⟨loaded s.fields, .conv g (w.map (trip io)) (b.map (trip io)),
      firstSize s.fields.outShapes, firstSize s.fields.inShapes,
      [g.kernel.h * g.kernel.w * sh.c * g.filters, g.filters]⟩ := by
  have hf := hs.own
  rw [ho] at hf
  have hw := hf.1 sh (by rw [hi]; rfl)
  obtain ⟨_, hb, w1, w2, w3, w4, w5, w6, w7⟩ := hf
  rw [dump_conv io hs ho hi, Exec.bind_ok]
  unfold load
  rw [loadBase_ok (f := s.fields) hs.inputs hs.outputs hs.words rfl rfl rfl (by rw [ho, hto]; rfl), Exec.bind_ok]
  rw [hto]
  show (feedforward t (loaded s.fields) >>= _) = _
  rw [feedforward_ok (l := t) (f := loaded s.fields) hs.inputs hs.outputs, Exec.bind_ok]
  unfold loadConv
  rw [loadPair_ok w1 w2 rfl rfl, Exec.bind_ok, other_ok rfl rfl, Exec.bind_ok, asSize_ofInt w3, Exec.bind_ok,
    loadPair_ok w4 w5 rfl rfl, Exec.bind_ok, loadPair_ok w6 w7 rfl rfl, Exec.bind_ok]
  show (shape0 s.fields.inShapes >>= _) = _
  rw [hi]
  show (Exec.ok sh >>= _) = _
  rw [Exec.bind_ok]
  dsimp only
  rw [loadParams_ok io (src := w) rfl rfl (by rw [prod_four, hw]) (by rw [resize_length, prod_four]), Exec.bind_ok]
  rw [loadParams_ok io (src := b) rfl rfl (by rw [prod_one, hb]) (by rw [resize_length, prod_one]), Exec.bind_ok]
  unfold loaded
  rw [hi]

/-! ### Pooling -/

/-- `others` of a pooling layer. -/
def poolOthers (g : PoolGeo) : List (Key × Json) :=
  [(kKernel, sizesJson [g.kernel.h, g.kernel.w]), (kStride, sizesJson [g.stride.h, g.stride.w])]

theorem dump_pool (io : NumText N) {l : Layer N} {g : PoolGeo} (ho : l.own = .maxPool g ∨ l.own = .avgPool g) :
    dump io l = .ok (.dict (baseFields (typeName l.own) l.fields [(kOthers, .dict (poolOthers g))] [])) := by
  unfold dump
  rw [dumpBase_ok, Exec.bind_ok]
  rcases ho with ho | ho <;> (rw [ho]; rfl)

theorem load_pool (io : NumText N) {s t : Layer N} {g g' : PoolGeo} (hs : Fits s)
    (ho : s.own = .maxPool g ∧ t.own = .maxPool g' ∨ s.own = .avgPool g ∧ t.own = .avgPool g') :
    (dump io s >>= load io t) = .ok ⟨loaded s.fields, s.own,
      firstSize s.fields.outShapes, firstSize s.fields.inShapes, t.gradLens⟩ := by
  rw [dump_pool io (g := g) (by rcases ho with h | h <;> simp [h.1]), Exec.bind_ok]
  unfold load
  rcases ho with ⟨ho, hto⟩ | ⟨ho, hto⟩
  all_goals
    have hf := hs.own
    rw [ho] at hf
    obtain ⟨w1, w2, w3, w4⟩ := hf
    rw [loadBase_ok (f := s.fields) hs.inputs hs.outputs hs.words rfl rfl rfl (by rw [ho, hto]; rfl), Exec.bind_ok]
    rw [hto]
    show (feedforward t (loaded s.fields) >>= _) = _
    rw [feedforward_ok (l := t) (f := loaded s.fields) hs.inputs hs.outputs, Exec.bind_ok]
    unfold loadPool
    rw [loadPair_ok w1 w2 rfl rfl, Exec.bind_ok, loadPair_ok w3 w4 rfl rfl, Exec.bind_ok, ho]
    rfl

/-! ### Dropout and mean squared error -/

theorem dump_rate (io : NumText N) {l : Layer N} {x y : N}
    (ho : l.own = .dropout x y ∨ l.own = .mse x) :
    dump io l = .ok (.dict (baseFields (typeName l.own) l.fields
      [(kOthers, .dict [(match l.own with
        | .dropout _ _ => kDrop
        | _ => kTolerance, num io x)])] [])) := by
  unfold dump
  rw [dumpBase_ok, Exec.bind_ok]
  rcases ho with ho | ho <;> (rw [ho]; rfl)

theorem load_dropout (io : NumText N) {s t : Layer N} {p c p' c' : N} (hs : Fits s)
    (ho : s.own = .dropout p c) (hto : t.own = .dropout p' c') :
    (dump io s >>= load io t) = .ok ⟨loaded s.fields, .dropout (trip io p) (scaleOf (trip io p)),
      firstSize s.fields.outShapes, firstSize s.fields.inShapes, t.gradLens⟩ := by
  rw [dump_rate io (.inl ho), Exec.bind_ok]
  unfold load
  rw [loadBase_ok (f := s.fields) hs.inputs hs.outputs hs.words rfl rfl rfl (by rw [ho, hto]; rfl), Exec.bind_ok]
  rw [hto, ho]
  show (feedforward t (loaded s.fields) >>= _) = _
  rw [feedforward_ok (l := t) (f := loaded s.fields) hs.inputs hs.outputs, Exec.bind_ok]
  rw [other_ok rfl rfl, Exec.bind_ok, asNum_num]
  rfl

theorem load_mse (io : NumText N) {s t : Layer N} {x x' : N} (hs : Fits s)
    (ho : s.own = .mse x) (hto : t.own = .mse x') :
    (dump io s >>= load io t) = .ok ⟨loaded s.fields, .mse (trip io x), t.outLen,
      firstSize s.fields.inShapes, t.gradLens⟩ := by
  rw [dump_rate io (y := x) (.inr ho), Exec.bind_ok]
  unfold load
  rw [loadBase_ok (f := s.fields) hs.inputs hs.outputs hs.words rfl rfl rfl (by rw [ho, hto]; rfl), Exec.bind_ok]
  rw [hto, ho]
  show (other _ _ >>= _) = _
  rw [other_ok rfl rfl, Exec.bind_ok, asNum_num]
  rfl

/-! ### Layers that save nothing of their own -/

/-- Classes whose `dump` is that of the base class. -/
def Bare : Own N → Prop
  | .relu | .elu _ | .softmax | .tanh | .sigmoid | .linear | .concat _ | .cce => True
  | _ => False

theorem dump_bare (io : NumText N) {l : Layer N} (ho : Bare l.own) :
    dump io l = .ok (.dict (baseFields (typeName l.own) l.fields [] [])) := by
  unfold dump
  rw [dumpBase_ok, Exec.bind_ok]
  cases h : l.own <;> rw [h] at ho <;> first | rfl | exact ho.elim

theorem load_bare (io : NumText N) {s t : Layer N} (hs : Fits s) (ho : Bare s.own)
    (hn : typeName t.own = typeName s.own) :
    (dump io s >>= load io t) = .ok ⟨loaded s.fields, t.own,
      if typeName t.own = typeName (.cce : Own N) then t.outLen else firstSize s.fields.outShapes,
      firstSize s.fields.inShapes, t.gradLens⟩ := by
  rw [dump_bare io ho, Exec.bind_ok]
  unfold load
  rw [loadBase_ok (f := s.fields) hs.inputs hs.outputs hs.words rfl rfl rfl (by rw [hn]; rfl), Exec.bind_ok]
  have hff := feedforward_ok (l := t) (f := loaded s.fields) hs.inputs hs.outputs
  cases hto : t.own <;> rw [hto] at hn <;> cases hso : s.own <;> rw [hso] at ho hn <;>
    first
    | exact ho.elim
    | (simp [typeName] at hn; done)
    | (show feedforward t (loaded s.fields) = _
       rw [hff, if_neg (by simp [typeName]), hto]
       rfl)
    | (rw [if_pos rfl]
       rfl)

/-! ### Recurrent -/

/-- `others` of a recurrent layer. -/
def rnnOthers (r : RnnOwn N) : List (Key × Json) :=
  [(kAct, ofInt r.act), (kHidden, ofInt r.hidden), (kSteps, ofInt r.steps)]

theorem dump_rnn (io : NumText N) {l : Layer N} {r : RnnOwn N} (hl : Fits l) (ho : l.own = .rnn r) :
    dump io l = .ok (.dict ((kBiases, .list [nestTree io r.bh [r.hidden] 0, nestTree io r.bo [l.fields.outSize] 0]) ::
      baseFields (typeName l.own) l.fields [(kOthers, .dict (rnnOthers r))]
        [(kWeights, .list [nestTree io r.wih [r.hidden, l.fields.inSize] 0, nestTree io r.whh [r.hidden, r.hidden] 0,
          nestTree io r.who [l.fields.outSize, r.hidden] 0])])) := by
  have hf := hl.own
  rw [ho] at hf
  obtain ⟨_, h1, h2, h3, h4, h5, _⟩ := hf
  unfold dump
  rw [dumpBase_ok, Exec.bind_ok, ho]
  show dumpRnn io _ _ _ = _
  unfold dumpRnn
  rw [nestJson_ok io r.wih _ 0 (by rw [prod_two, h1, Nat.mul_comm]; omega), Exec.bind_ok,
    nestJson_ok io r.whh _ 0 (by rw [prod_two, h2]; omega), Exec.bind_ok,
    nestJson_ok io r.who _ 0 (by rw [prod_two, h3, Nat.mul_comm]; omega), Exec.bind_ok]
  show (nestJson io r.bh _ 0 >>= _) = _
  rw [nestJson_ok io r.bh _ 0 (by rw [prod_one, h4]; omega), Exec.bind_ok,
    nestJson_ok io r.bo _ 0 (by rw [prod_one, h5]; omega), Exec.bind_ok]
  rfl

theorem load_rnn (io : NumText N) {s t : Layer N} {r r' : RnnOwn N} (hs : Fits s) (ho : s.own = .rnn r)
    (hto : t.own = .rnn r') :
    (dump io s >>= load io t) = .ok ⟨loaded s.fields,
      .rnn ⟨r.act, r.hidden, r.steps, r.wih.map (trip io), r.whh.map (trip io), r.who.map (trip io),
        r.bh.map (trip io), r.bo.map (trip io), resize r'.state (r.hidden * max r.steps 1)⟩,
      firstSize s.fields.outShapes * r.steps, firstSize s.fields.inShapes * r.steps,
      [firstSize s.fields.inShapes * r.hidden, r.hidden * r.hidden, r.hidden * firstSize s.fields.outShapes,
        r.hidden, firstSize s.fields.outShapes]⟩ := by
  have hf := hs.own
  rw [ho] at hf
  obtain ⟨h0, h1, h2, h3, h4, h5, a1, a2, w1, w2, _⟩ := hf
  have h0' := hs.inSize
  rw [dump_rnn io hs ho, Exec.bind_ok]
  unfold load
  rw [loadBase_ok (f := s.fields) hs.inputs hs.outputs hs.words rfl rfl rfl (by rw [ho, hto]; rfl), Exec.bind_ok]
  rw [hto]
  show loadRnn io _ { t with fields := loaded s.fields } r' = _
  unfold loadRnn
  rw [other_ok rfl rfl, Exec.bind_ok, asInt_ofInt a1 a2, Exec.bind_ok, other_ok rfl rfl, Exec.bind_ok,
    asSize_ofInt w1, Exec.bind_ok, other_ok rfl rfl, Exec.bind_ok, asSize_ofInt w2, Exec.bind_ok]
  dsimp only
  show (loadParams io _ kWeights [0] [r.hidden, firstSize s.fields.inShapes]
    (resize r'.wih (firstSize s.fields.inShapes * r.hidden)) >>= _) = _
  rw [loadParams_ok io (src := r.wih) rfl (by rw [← h0']; rfl) (by rw [prod_two, h1, h0', Nat.mul_comm])
    (by rw [resize_length, prod_two, Nat.mul_comm]), Exec.bind_ok]
  rw [loadParams_ok io (src := r.whh) rfl rfl (by rw [prod_two, h2]) (by rw [resize_length, prod_two]), Exec.bind_ok]
  show (loadParams io _ kWeights [2] [firstSize s.fields.outShapes, r.hidden]
    (resize r'.who (r.hidden * firstSize s.fields.outShapes)) >>= _) = _
  rw [loadParams_ok io (src := r.who) rfl (by rw [← h0]; rfl) (by rw [prod_two, h3, h0, Nat.mul_comm])
    (by rw [resize_length, prod_two, Nat.mul_comm]), Exec.bind_ok]
  rw [loadParams_ok io (src := r.bh) rfl rfl (by rw [prod_one, h4]) (by rw [resize_length, prod_one]), Exec.bind_ok]
  show (loadParams io _ kBiases [1] [firstSize s.fields.outShapes] (resize r'.bo (firstSize s.fields.outShapes)) >>= _) = _
  rw [loadParams_ok io (src := r.bo) rfl (by rw [← h0]; rfl) (by rw [prod_one, h5, h0])
    (by rw [resize_length, prod_one]), Exec.bind_ok]
  rfl

end Verif.Dump

import Verif.Proofs.Decimal
import Verif.Proofs.DumpBuffers

/-
C60 and C68: saving layers as JSON and loading them.
-/

namespace Verif.Props

open Verif.Js Verif.Text Verif.Slide Verif.Spec Verif.Dump

variable {N : Type} [Zero N] [One N] [Sub N] [Div N] [DecidableEq N]

/-- C60: for every layer a program can have and every layer of the same type, the JSON saved from the first
is accepted by the second, which then has the name, shapes, configuration, weights and biases of the
first, numbers as their text says. -/
theorem C60_dump_load (io : NumText N) {s t : Layer N} (hs : Built io s) (hn : typeName t.own = typeName s.own) :
    ∃ j l, dump io s = .ok j ∧ load io t j = .ok l ∧ Restored io s l := by
  obtain ⟨m, hj, _⟩ := dump_type io (built_fits hs)
  obtain ⟨l, h1, h2, _⟩ := load_dump io (built_fits hs) hn
  rw [hj, Exec.bind_ok] at h1
  exact ⟨_, l, hj, h1, h2⟩

/-- C60: a layer of any other type throws. -/
theorem C60_other_type (io : NumText N) {s t : Layer N} (hs : Built io s) (hn : typeName t.own ≠ typeName s.own) :
    ∃ j m, dump io s = .ok j ∧ load io t j = .throw m := by
  obtain ⟨_, hj, _⟩ := dump_type io (built_fits hs)
  have h1 := load_other io (built_fits hs) hn
  rw [hj, Exec.bind_ok] at h1
  exact ⟨_, _, hj, h1⟩

/-- C60: types tell the classes apart, whatever the sizes, weights and settings. -/
theorem C60_types_differ (a b c : N) (w v : List N) (g : PoolGeo) (k : ConvGeo) (r : RnnOwn N) (n : Nat) :
    ([Own.relu, .elu a, .softmax, .tanh, .sigmoid, .linear, .concat n, .cce, .mse a, .maxPool g, .avgPool g,
      .dropout b c, .dense w v, .conv k w v, .rnn r].map typeName).Nodup := by
  simp only [List.map_cons, List.map_nil, typeName]
  decide

/-- C60: the second layer afterwards has buffers of the sizes that the restored shapes ask for, and a second
saving and loading changes nothing if numbers keep their text. -/
theorem C60_again (io : NumText N) (hio : ∀ x, io.text (trip io x) = io.text x) {s t u : Layer N} (hs : Built io s)
    (hn : typeName t.own = typeName s.own) (hu : typeName u.own = typeName s.own) :
    ∃ j l j' l', dump io s = .ok j ∧ load io t j = .ok l ∧ dump io l = .ok j' ∧ load io u j' = .ok l' ∧
      Restored io s l' := by
  obtain ⟨m, hj, _⟩ := dump_type io (built_fits hs)
  obtain ⟨l, h1, h2, _⟩ := load_dump io (built_fits hs) hn
  rw [hj, Exec.bind_ok] at h1
  have hl := load_fits h1
  obtain ⟨m', hj', _⟩ := dump_type io hl
  obtain ⟨l', h1', h2', _⟩ := load_dump io hl (t := u) (by rw [hu, h2.type])
  rw [hj', Exec.bind_ok] at h1'
  have ht : trip io ∘ trip io = trip io := by
    funext x
    show io.value (io.text (trip io x)) = io.value (io.text x)
    rw [hio]
  refine ⟨_, l, _, l', hj, h1, hj', h1', h2'.type.trans h2.type, h2'.name.trans h2.name, h2'.inputs.trans h2.inputs,
    h2'.outputs.trans h2.outputs, h2'.config.trans h2.config, ?_, ?_⟩
  · rw [h2'.rates, h2.rates, List.map_map, ht]
  · rw [h2'.params, h2.params, List.map_map]
    congr 1
    funext x
    show List.map _ (List.map _ x) = _
    rw [List.map_map, ht]

/-- C60: with numbers written with six decimals, a number read back differs from the saved one by at most
half a millionth, and is saved again as the same text. -/
theorem C60_resolution (x : ℚ) :
    |trip sixDecimals x - x| ≤ 1 / 2000000 ∧ trip sixDecimals (trip sixDecimals x) = trip sixDecimals x := by
  have h := millionths_near x
  rw [abs_le] at h
  have h0 : (0 : ℚ) ≤ (millionths x : ℚ) / 1000000 := by positivity
  have e : millionths (trip sixDecimals x) = millionths x := by
    apply millionths_exact
    rw [trip_six]
    by_cases hx : x < 0
    · rw [if_pos hx, neg_one_mul, abs_neg, abs_of_nonneg h0]
    · rw [if_neg hx, one_mul, abs_of_nonneg h0]
  constructor
  · rw [trip_six]
    rw [abs_le]
    by_cases hx : x < 0
    · rw [if_pos hx]
      rw [abs_of_neg hx] at h
      constructor <;> linarith
    · rw [if_neg hx]
      rw [abs_of_nonneg (by linarith)] at h
      constructor <;> linarith
  · conv_lhs => rw [trip_six]
    rw [e, trip_six]
    by_cases hx : x < 0
    · rw [if_pos hx]
      by_cases h1 : (-1 : ℚ) * ((millionths x : ℚ) / 1000000) < 0
      · rw [if_pos h1]
      · rw [if_neg h1]
        linarith
    · rw [if_neg hx, one_mul, if_neg (by linarith), one_mul]

/-- C60: a dense layer of two inputs and one output, trained, and a layer of other sizes into which it is
loaded. -/
example :
    let s : Layer ℚ := { (newDense ['a'] 2 1 : Layer ℚ) with own := .dense [1 / 4, -3 / 2] [1 / 10000000] }
    let t : Layer ℚ := newDense ['b'] 5 7
    Built sixDecimals s ∧ typeName t.own = typeName s.own ∧
      trip sixDecimals (1 / 4) = 1 / 4 ∧ trip sixDecimals (-3 / 2) = -3 / 2 ∧ trip sixDecimals (1 / 10000000) = 0 := by
  refine ⟨.train (.dense ?_ ?_) (.dense rfl rfl), rfl, ?_, ?_, ?_⟩
  · show 2 < 2 ^ 64; decide
  · show 1 < 2 ^ 64; decide
  · rw [trip_six, millionths_exact 250000 (1 / 4) (by norm_num [abs_of_pos])]
    norm_num
  · rw [trip_six, millionths_exact 1500000 (-3 / 2) (by rw [abs_of_neg (by norm_num)]; norm_num)]
    norm_num
  · have : millionths (1 / 10000000) = 0 := by
      unfold millionths
      have : |(1 / 10000000 : ℚ)| * 1000000 = 1 / 10 := by rw [abs_of_pos (by norm_num)]; norm_num
      rw [this]
      norm_num
    rw [trip_six, this]
    norm_num

/-! ### C68: what decides how a layer computes -/

/-- C68, proved part: apart from the settings below, the restored layer has the settings of the saved one:
its dropout scale is the one that belongs to the restored probability, and its buffers have the sizes that
the saved shapes ask for.  Missing: the settings that are not saved. -/
theorem C68_sizes_partial (io : NumText N) {s t : Layer N} (hs : Built io s) (hn : typeName t.own = typeName s.own) :
    ∃ j l, dump io s = .ok j ∧ load io t j = .ok l ∧
      l.inLen = (match s.own with
        | .rnn r => firstSize s.fields.inShapes * r.steps
        | _ => firstSize s.fields.inShapes) ∧
      (∀ p c, l.own = .dropout p c → c = scaleOf p) ∧ Fits l := by
  obtain ⟨m, hj, _⟩ := dump_type io (built_fits hs)
  obtain ⟨l, h1, h2, h3⟩ := load_dump io (built_fits hs) hn
  rw [hj, Exec.bind_ok] at h1
  refine ⟨_, l, hj, h1, h3, ?_, load_fits h1⟩
  intro p c hl
  have hls : typeName s.own = typeName (.dropout p c) := by rw [← h2.type, hl]
  cases ho : s.own <;> rw [ho] at hls <;> first | (simp [typeName] at hls; done) | skip
  rename_i p1 c1
  rw [ho] at hn
  cases hto : t.own <;> rw [hto] at hn <;> first | (simp [typeName] at hn; done) | skip
  have h4 := load_dropout io (built_fits hs) ho hto
  rw [hj, Exec.bind_ok, h1] at h4
  cases h4
  cases hl
  rfl

/-- In every layer that a program can have - constructed, trained, given other input shapes, and loaded from whatever
JSON, in any order - the buffers have the lengths that its shapes and parameters ask for. -/
theorem C68_buffers_partial (io : NumText N) {l : Layer N} (h : Built io l) : Buffers l := built_buffers h

/-- C68: the `alpha` of an Elu layer is not saved: the layer loaded keeps its own. -/
theorem C68_elu_refuted (io : NumText N) (name name' : List Char) (n : Nat) (a b : N) (hn : Word n) :
    ∃ j l, Built io (newFlat (.elu a) name n) ∧ dump io (newFlat (.elu a) name n) = .ok j ∧
      load io (newFlat (.elu b) name' n) j = .ok l ∧ l.own = .elu b := by
  have hb : Built io (newFlat (.elu a) name n) := .activation (.inr (.inl ⟨a, rfl⟩)) hn
  have h := load_bare io (t := newFlat (.elu b) name' n) (built_fits hb) trivial rfl
  obtain ⟨m, hj, _⟩ := dump_type io (built_fits hb)
  rw [hj, Exec.bind_ok] at h
  exact ⟨_, _, hb, hj, h, rfl⟩

/-- C68: the axis of a Concatenate layer is not saved: a layer that joins cubes of side 2 along the first
axis is loaded into one that joins them along the second, which keeps its axis and gets the shapes. -/
theorem C68_axis_refuted (io : NumText N) (name name' : List Char) :
    ∃ (s t l : Layer N) (j : Json), newConcat name [⟨2, 2, 2⟩, ⟨2, 2, 2⟩] 0 = .ok s ∧
      newConcat name' [⟨2, 2, 2⟩, ⟨2, 2, 2⟩] 1 = .ok t ∧ dump io s = .ok j ∧ load io t j = .ok l ∧
      s.own = .concat 0 ∧ l.own = .concat 1 ∧ l.fields.outShapes = [⟨4, 2, 2⟩] := by
  let s : Layer N := ⟨fieldsOf name ⟨2, 2, 2⟩ ⟨4, 2, 2⟩, .concat 0, 16, 8, []⟩
  let t : Layer N := ⟨fieldsOf name' ⟨2, 2, 2⟩ ⟨2, 4, 2⟩, .concat 1, 16, 8, []⟩
  have hw : ∀ x ∈ s.fields.inShapes ++ s.fields.outShapes, WordShape x := two_words
    ⟨by show 2 < 2 ^ 64; decide, by show 2 < 2 ^ 64; decide, by show 2 < 2 ^ 64; decide⟩
    ⟨by show 4 < 2 ^ 64; decide, by show 2 < 2 ^ 64; decide, by show 2 < 2 ^ 64; decide⟩
  have hb : Built io s := .concat (name := name) (shapes := [⟨2, 2, 2⟩, ⟨2, 2, 2⟩]) (axis := 0) rfl hw
  have h := load_bare io (t := t) (built_fits hb) trivial rfl
  obtain ⟨m, hj, _⟩ := dump_type io (built_fits hb)
  rw [hj, Exec.bind_ok] at h
  exact ⟨s, t, _, _, rfl, rfl, hj, h, rfl, rfl, rfl⟩

/-- C68: the hidden state of a recurrent layer is not saved: the layer loaded keeps its own, cut or filled
with zeros to the new size. -/
theorem C68_state_refuted (io : NumText N) {s t : Layer N} {r r' : RnnOwn N} (hs : Built io s)
    (ho : s.own = .rnn r) (hto : t.own = .rnn r') (hz : r'.state.length = r.hidden * max r.steps 1) :
    ∃ j l q, dump io s = .ok j ∧ load io t j = .ok l ∧ l.own = .rnn q ∧ q.state = r'.state := by
  obtain ⟨m, hj, _⟩ := dump_type io (built_fits hs)
  have h := load_rnn io (built_fits hs) ho hto
  rw [hj, Exec.bind_ok] at h
  refine ⟨_, _, _, hj, h, rfl, ?_⟩
  show resize r'.state _ = _
  unfold resize
  rw [← hz, List.take_length, Nat.sub_self]
  simp

/-- C68: such recurrent layers exist: the saved one has state 1, the other one 0. -/
example (io : NumText ℚ) : ∃ s t : Layer ℚ, ∃ r r' : RnnOwn ℚ, Built io s ∧ s.own = .rnn r ∧ t.own = .rnn r' ∧
    r'.state.length = r.hidden * max r.steps 1 ∧ r.state = [1] ∧ r'.state = [0] := by
  refine ⟨{ (newRnn [] 1 1 1 1 0 : Layer ℚ) with own := .rnn ⟨0, 1, 1, [2], [3], [4], [5], [6], [1]⟩ }, newRnn [] 1 1 1 1 0, _, _,
    .train (.rnn ?_ ?_ ?_ ?_ ?_ ?_) (.rnn rfl rfl rfl rfl rfl rfl), rfl, rfl, rfl, rfl, rfl⟩
  all_goals first | (show 1 < 2 ^ 64; decide) | decide

end Verif.Props

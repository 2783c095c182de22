import Verif.Proofs.Images
import Mathlib.Tactic.NormNum

/-
C58, C59, C66 and C67: MNIST and CIFAR files.
-/

namespace Verif.Props

open Verif.Spec Verif.Images

/-! ### C58: MNIST -/

/-- A well-formed pair of files opens, on every processor. -/
theorem C58_opens_partial (little : Bool) {images labels : List UInt8} {n : Nat} (h : MnistPair images labels n) :
    ∃ m, Mnist.make little (some images) (some labels) = .ok m ∧ m.entries = n ∧ m.features = 785 ∧
      m.labelsIdx = [784] := by
  rcases mnist_make (little := little) (images := images) (labels := labels) (by rw [h.imageSize]; omega)
    (by rw [h.labelSize]; omega) with ⟨-, -, -, -, -, m, h1, -, -, h4⟩ | ⟨hn, -⟩
  · exact ⟨m, h1, h4.trans h.imageCount, rfl, rfl⟩
  · exact absurd ⟨h.imageMagic, h.labelMagic, h.imageCount.trans h.labelCount.symm, h.imageRows, h.imageCols⟩ hn

/-- After any history of calls, `image(i)`, `label(i)` and `entry(i)` give the bytes of sample `i mod n`. -/
theorem C58_samples_partial {little : Bool} {images labels : List UInt8} {n : Nat} (h : MnistPair images labels n)
    (hn : 0 < n) {m : Mnist} (hm : Mnist.make little (some images) (some labels) = .ok m) (calls : List Call) (i : Nat) :
    ∃ m', m.calls calls = .ok m' ∧
      (∃ q, m'.image i = .ok (q, i % n, bytes images (16 + 784 * (i % n)) 784)) ∧
      (∃ q l, m'.label i = .ok (q, i % n, [l]) ∧ labels[8 + i % n]? = some l) ∧
      (∃ q l, m'.entry i = .ok (q, bytes images (16 + 784 * (i % n)) 784 ++ [l]) ∧ labels[8 + i % n]? = some l) := by
  have ho : Open images labels n m := by
    rcases mnist_make (little := little) (images := images) (labels := labels) (by rw [h.imageSize]; omega)
      (by rw [h.labelSize]; omega) with ⟨-, -, -, -, -, m', h1, h2, h3, h4⟩ | ⟨-, e, h1⟩
    · rw [hm] at h1
      cases h1
      exact ⟨h2, h3, h4.trans h.imageCount⟩
    · rw [hm] at h1
      cases h1
  obtain ⟨m', k1, k2⟩ := calls_spec hn h.imageSize h.labelSize calls ho
  obtain ⟨q1, a1, -⟩ := image_spec hn h.imageSize k2 i
  obtain ⟨q2, a2, -⟩ := label_spec hn h.labelSize k2 i
  obtain ⟨q3, a3, -⟩ := entry_spec hn h.imageSize h.labelSize k2 i
  have hlt : 8 + i % n < labels.length := by
    rw [h.labelSize]
    have := Nat.mod_lt i hn
    omega
  have hb : bytes labels (8 + i % n) 1 = [labels[8 + i % n]] := by
    unfold bytes
    rw [List.drop_eq_getElem_cons hlt, List.take_succ_cons, List.take_zero]
  rw [hb] at a2 a3
  exact ⟨m', k1, ⟨q1, a1⟩, ⟨q2, _, a2, List.getElem?_eq_getElem hlt⟩, ⟨q3, _, a3, List.getElem?_eq_getElem hlt⟩⟩

/-- Files with complete headers are accepted exactly when both magic numbers are right, the counts are equal and images
have 28 rows and columns; all others are rejected by an exception. -/
theorem C58_rejected_partial (little : Bool) {images labels : List UInt8} (hi : 16 ≤ images.length)
    (hl : 8 ≤ labels.length) :
    ((∃ m, Mnist.make little (some images) (some labels) = .ok m) ↔
      number (bytes images 0 4) = 2051 ∧ number (bytes labels 0 4) = 2049 ∧
      number (bytes images 4 4) = number (bytes labels 4 4) ∧ number (bytes images 8 4) = 28 ∧
      number (bytes images 12 4) = 28) ∧
    ((∃ m, Mnist.make little (some images) (some labels) = .ok m) ∨
      ∃ e, Mnist.make little (some images) (some labels) = .throw e) := by
  rcases mnist_make (little := little) hi hl with ⟨h1, h2, h3, h4, h5, m, h6, -⟩ | ⟨hn, e, h1⟩
  · exact ⟨⟨fun _ => ⟨h1, h2, h3, h4, h5⟩, fun _ => ⟨m, h6⟩⟩, Or.inl ⟨m, h6⟩⟩
  · exact ⟨⟨fun ⟨m, hm⟩ => (by rw [hm] at h1; cases h1), fun h => absurd h hn⟩, Or.inr ⟨e, h1⟩⟩

/-- A file that cannot be opened is rejected. -/
theorem C58_missing_file (little : Bool) (images labels : Option (List UInt8)) (h : images = none ∨ labels = none) :
    ∃ e, Mnist.make little images labels = .throw e := by
  cases images with
  | none => exact ⟨_, rfl⟩
  | some i =>
    rcases h with h | rfl
    · cases h
    · exact ⟨_, rfl⟩

/-- The claim is false for files too short for a magic number: they are not rejected, an uninitialized variable is
used. -/
theorem C58_short_file_refuted (little : Bool) {images : List UInt8} (h : images.length < 4) (labels : List UInt8) :
    Mnist.make little (some images) (some labels) = .ub := by
  unfold Mnist.make
  dsimp only
  rw [readU32_short (ready_on images) (by simp [Bin.on]; omega)]
  rfl

/-- A well-formed pair without samples opens, but asking for an image divides by zero. -/
theorem C58_no_samples_refuted {little : Bool} {images labels : List UInt8} (h : MnistPair images labels 0) {m : Mnist}
    (hm : Mnist.make little (some images) (some labels) = .ok m) (i : Nat) : m.image i = .ub ∧ m.label i = .ub := by
  obtain ⟨m', h1, h2, -⟩ := C58_opens_partial little h
  rw [hm] at h1
  cases h1
  have h2 : m.size = 0 := h2
  unfold Mnist.image Mnist.label
  rw [if_pos h2, if_pos h2]
  exact ⟨rfl, rfl⟩

/-- Non-vacuity: a pair with two samples, the second image black and labelled 7. -/
example : MnistPair ([0, 0, 8, 3, 0, 0, 0, 2, 0, 0, 0, 28, 0, 0, 0, 28] ++ List.replicate 784 255 ++ List.replicate 784 0)
    [0, 0, 8, 1, 0, 0, 0, 2, 3, 7] 2 :=
  ⟨by decide, by decide, by decide, by decide,
    by rw [List.length_append, List.length_append, List.length_replicate, List.length_replicate]; rfl,
    by decide, by decide, rfl⟩

example : MnistPair [0, 0, 8, 3, 0, 0, 0, 0, 0, 0, 0, 28, 0, 0, 0, 28] [0, 0, 8, 1, 0, 0, 0, 0] 0 :=
  ⟨by decide, by decide, by decide, by decide, rfl, by decide, by decide, rfl⟩

/-! ### C59: CIFAR -/

/-- What a batch is opened as: with fine names in the format asked for, without them always as CIFAR-10. -/
theorem C59_opened_format (batch : Option (List UInt8)) (coarse : Option (List Char)) (order : Order) (format : Format)
    (fine : Option (Option (List Char))) :
    (Cifar.make batch coarse order format fine).format = (if fine = none then .cifar10 else format) ∧
    (Cifar.make batch coarse order format fine).order = order := by
  unfold Cifar.make
  cases fine <;> cases format <;> simp

theorem make_loaded {format : Format} {order : Order} {batch : List UInt8} (coarse : Option (List Char)) (f : Format)
    (fine : Option (Option (List Char))) (hf : format = if fine = none then .cifar10 else f) :
    Loaded format order batch (Cifar.make (some batch) coarse order f fine) := by
  subst hf
  refine ⟨⟨rfl, rfl, rfl⟩, (C59_opened_format (some batch) coarse order f fine).1, rfl, ?_⟩
  unfold Cifar.make
  cases fine <;> cases f <;> simp [labelBytes]

/-- After any history of calls, image, labels and entry `i` are decoded from record `i mod 10000`: the label bytes
first, then the 3072 bytes of the image, in the order asked for. -/
theorem C59_records {format : Format} {order : Order} {batch : List UInt8} (hb : CifarBatch format batch)
    (coarse : Option (List Char)) (f : Format) (fine : Option (Option (List Char)))
    (hf : format = if fine = none then .cifar10 else f) (calls : List Call) (i : Nat) :
    ∃ c d, (Cifar.make (some batch) coarse order f fine).calls calls = .ok c ∧
      imageData order (imageBytes format (record format batch (i % 10000))) = .ok d ∧
      (∃ q, c.image i = .ok (q, i % 10000, d)) ∧
      (∃ q, c.label i = .ok (q, i % 10000, coarseLabel (record format batch (i % 10000)),
        fineLabel format (record format batch (i % 10000)))) ∧
      (∃ q, c.entry i = .ok (q, d ++ entryLabel format (record format batch (i % 10000)))) := by
  have hl := make_loaded (order := order) (batch := batch) coarse f fine hf
  obtain ⟨c, k1, k2⟩ := cifar_calls calls (fun k _ => hasRecord_of hb _) hl
  obtain ⟨q1, d, a1, -, hd⟩ := cifar_image k2 (hasRecord_of hb i)
  obtain ⟨q2, a2, -⟩ := cifar_label k2 (hasRecord_of hb i)
  obtain ⟨q3, d', a3, -, hd'⟩ := cifar_entry k2 (hasRecord_of hb i)
  rw [hd] at hd'
  cases hd'
  exact ⟨c, d, k1, hd, ⟨q1, a1⟩, ⟨q2, a2⟩, ⟨q3, a3⟩⟩

/-- A batch has ten thousand entries of 3073 numbers, of which the last one is the label, and the shape asked for. -/
theorem C59_columns (batch : Option (List UInt8)) (coarse : Option (List Char)) (order : Order) (format : Format)
    (fine : Option (Option (List Char))) :
    (Cifar.make batch coarse order format fine).entries = 10000 ∧
    (Cifar.make batch coarse order format fine).features = 3073 ∧
    (Cifar.make batch coarse order format fine).labelsIdx = [3072] ∧
    (Cifar.make batch coarse order format fine).shape =
      (match order with
      | .rowMajor => (32, 32, 3)
      | .channelMajor => (3, 32, 32)) :=
  ⟨rfl, rfl, rfl, by cases order <;> rfl⟩

/-- Asking for channels last keeps every pixel and channel, for images of any side. -/
theorem C59_pixels {side : Nat} {image : List UInt8} (hL : image.length = 3 * (side * side)) :
    ∃ out, interleave side image = .ok out ∧ out.length = image.length ∧
      ∀ row col channel, row < side → col < side → channel < 3 →
        channelLast side out row col channel = channelFirst side image row col channel := by
  obtain ⟨out, h1, h2, h3⟩ := interleave_spec hL
  refine ⟨out, h1, h2, fun row col channel hr hc hch => ?_⟩
  have hb : row * side + col < side * side := by
    have : (row + 1) * side ≤ side * side := Nat.mul_le_mul_right _ hr
    rw [Nat.add_mul] at this
    omega
  unfold channelLast channelFirst
  rw [h3 _ _ hb hch, Nat.add_assoc]

/-- The result is a rearrangement of the bytes of the image. -/
theorem C59_rearranged {side : Nat} {image : List UInt8} (hL : image.length = 3 * (side * side)) :
    ∃ out, interleave side image = .ok out ∧ out.Perm image := by
  obtain ⟨out, h1, -⟩ := interleave_spec hL
  exact ⟨out, h1, interleave_perm hL h1⟩

/-- Different images stay different. -/
theorem C59_injective {side : Nat} {a b out : List UInt8} (ha : a.length = 3 * (side * side))
    (hb : b.length = 3 * (side * side)) (h1 : interleave side a = .ok out) (h2 : interleave side b = .ok out) :
    a = b := by
  obtain ⟨o1, p1, -, p3⟩ := interleave_spec ha
  obtain ⟨o2, q1, -, q3⟩ := interleave_spec hb
  rw [h1] at p1
  rw [h2] at q1
  cases p1
  cases q1
  apply List.ext_getElem?
  intro k
  by_cases hk : k < 3 * (side * side)
  · generalize side * side = n at *
    have hn : 0 < n := by omega
    have h3 : k / n < 3 := Nat.div_lt_of_lt_mul (by omega)
    have h4 : k % n < n := Nat.mod_lt _ hn
    have e : k / n * n + k % n = k := by rw [Nat.mul_comm]; exact Nat.div_add_mod k n
    have r1 := p3 (k % n) (k / n) h4 h3
    have r2 := q3 (k % n) (k / n) h4 h3
    rw [e] at r1 r2
    exact r1.symm.trans r2
  · rw [List.getElem?_eq_none (by omega), List.getElem?_eq_none (by omega)]

/-- Every sequence of 3072 bytes is the channels-last form of an image: the arrangement is onto. -/
theorem C59_onto {side : Nat} {out : List UInt8} (h : out.length = 3 * (side * side)) :
    ∃ image : List UInt8, image.length = 3 * (side * side) ∧ interleave side image = .ok out := by
  let image := (List.range (3 * (side * side))).map (fun k => out[k % (side * side) * 3 + k / (side * side)]?.getD 0)
  have hl : image.length = 3 * (side * side) := by simp [image]
  obtain ⟨o, h1, h2, h3⟩ := interleave_spec hl
  refine ⟨image, hl, ?_⟩
  rw [h1]
  congr 1
  apply List.ext_getElem?
  intro k
  by_cases hk : k < 3 * (side * side)
  · have r := h3 (k / 3) (k % 3) (by omega) (by omega)
    have hn : 0 < side * side := by omega
    generalize hs : side * side = n at *
    rw [show k / 3 * 3 + k % 3 = k by omega] at r
    rw [r]
    have hi : k % 3 * n + k / 3 < 3 * n := by
      have : k % 3 = 0 ∨ k % 3 = 1 ∨ k % 3 = 2 := by omega
      rcases this with e | e | e <;> simp only [e] <;> omega
    have hd : (k % 3 * n + k / 3) / n = k % 3 := by
      rw [Nat.mul_comm, Nat.mul_add_div hn, Nat.div_eq_of_lt (by omega), Nat.add_zero]
    have hm : (k % 3 * n + k / 3) % n = k / 3 := by
      rw [Nat.mul_comm, Nat.mul_add_mod, Nat.mod_eq_of_lt (by omega)]
    simp only [image, List.getElem?_map, hs]
    rw [List.getElem?_range hi, Option.map_some, hd, hm, show k / 3 * 3 + k % 3 = k by omega,
      List.getElem?_eq_getElem (by omega), Option.getD_some]
  · rw [List.getElem?_eq_none (by omega), List.getElem?_eq_none (by omega)]

/-- The two forms asked for by a user: unchanged bytes, and the rearranged ones for side 32. -/
theorem C59_orders (image : List UInt8) :
    imageData .channelMajor image = .ok image ∧ imageData .rowMajor image = interleave 32 image := ⟨rfl, rfl⟩

/-- Non-vacuity: a batch of zeros, and the arrangement of a two by two image. -/
example : CifarBatch .cifar10 (List.replicate (10000 * (1 + 3072)) 0) := by
  unfold CifarBatch
  rw [List.length_replicate]
  rfl

example : interleave 2 [1, 2, 3, 4, 11, 12, 13, 14, 21, 22, 23, 24] =
    .ok [1, 11, 21, 2, 12, 22, 3, 13, 23, 4, 14, 24] := by rfl

/-! ### C93: incomplete files -/

/-- C93, proved part: as long as only samples that the file contains were read, a sample that it contains is decoded
from its record.  Missing: samples that the file does not contain, for which the claim is refuted below. -/
theorem C93_records_partial {format : Format} {order : Order} {batch : List UInt8} (coarse : Option (List Char))
    (f : Format) (fine : Option (Option (List Char))) (hf : format = if fine = none then .cifar10 else f)
    (calls : List Call) (hc : ∀ k ∈ calls, HasRecord format batch (callIndex k)) (i : Nat)
    (hi : HasRecord format batch i) :
    ∃ c d, (Cifar.make (some batch) coarse order f fine).calls calls = .ok c ∧
      imageData order (imageBytes format (record format batch (i % 10000))) = .ok d ∧
      (∃ q, c.image i = .ok (q, i % 10000, d)) ∧
      (∃ q, c.label i = .ok (q, i % 10000, coarseLabel (record format batch (i % 10000)),
        fineLabel format (record format batch (i % 10000)))) ∧
      (∃ q, c.entry i = .ok (q, d ++ entryLabel format (record format batch (i % 10000)))) := by
  obtain ⟨c, k1, k2⟩ := cifar_calls calls hc (make_loaded (order := order) (batch := batch) coarse f fine hf)
  obtain ⟨q1, d, a1, -, hd⟩ := cifar_image k2 hi
  obtain ⟨q2, a2, -⟩ := cifar_label k2 hi
  obtain ⟨q3, d', a3, -, hd'⟩ := cifar_entry k2 hi
  rw [hd] at hd'
  cases hd'
  exact ⟨c, d, k1, hd, ⟨q1, a1⟩, ⟨q2, a2⟩, ⟨q3, a3⟩⟩

/-- C93, what happens: once a read has failed, every image is black and every label 0. -/
theorem C93_failed_actual {c : Cifar} (h : c.batch.fail = true) (i : Nat) :
    (∃ q, c.image i = .ok (q, i % 10000, List.replicate 3072 0) ∧ q.batch.fail = true) ∧
      (∃ q, c.label i = .ok (q, i % 10000, [0], [0]) ∧ q.batch.fail = true) := by
  have hs : ∀ p, (c.batch.seek p).fail = true := fun p => by simp [Bin.seek, h]
  have hr : ∀ (s : Bin) (d : List UInt8), s.fail = true → s.read d = ({ s with fail := true }, d) := fun s d hs => by
    simp [Bin.read, hs]
  constructor
  · obtain ⟨d, hd, hl⟩ := imageData_total (order := c.order) (image := List.replicate 3072 0) List.length_replicate
    have hz : d = List.replicate 3072 0 := by
      cases ho : c.order with
      | channelMajor => rw [ho] at hd; exact (Exec.ok.inj hd).symm
      | rowMajor =>
        rw [ho] at hd
        have := interleave_perm (side := 32) (by rw [List.length_replicate]) hd
        rw [List.perm_replicate] at this
        exact this
    refine ⟨{ c with batch := { c.batch.seek (i % 10000 * (32 * 32 * 3 + c.offset) + c.offset) with fail := true } },
      ?_, rfl⟩
    unfold Cifar.image
    dsimp only
    rw [hr _ _ (hs _), hd, Exec.bind_ok, hz]
  · unfold Cifar.label
    dsimp only
    rw [hr _ _ (hs _)]
    cases c.format with
    | cifar10 => exact ⟨_, rfl, rfl⟩
    | cifar100 =>
      dsimp only
      rw [hr _ _ rfl]
      exact ⟨_, rfl, rfl⟩

theorem image_beyond {format : Format} {order : Order} {batch : List UInt8} {c : Cifar}
    (h : Loaded format order batch c) {j : Nat} (hj : ¬ HasRecord format batch j) :
    ∃ c', (∃ p, c.image j = .ok (c', p)) ∧ c'.batch.fail = true := by
  obtain ⟨k1, k2⟩ := seek_ready h.batch (j % 10000 * (32 * 32 * 3 + c.offset) + c.offset)
  have hlt : batch.length < j % 10000 * (32 * 32 * 3 + c.offset) + c.offset + 3072 := by
    unfold HasRecord at hj
    rw [h.offset, show j % 10000 * (32 * 32 * 3 + labelBytes format) + labelBytes format + 3072 =
      (j % 10000 + 1) * (labelBytes format + 3072) by ring]
    omega
  have hf := read_short (dest := List.replicate (32 * 32 * 3) 0) k1 (by rw [k2, List.length_replicate]; exact hlt)
    (by rw [Ne, List.replicate_eq_nil_iff]; omega)
  have hlen := read_length (c.batch.seek (j % 10000 * (32 * 32 * 3 + c.offset) + c.offset))
    (List.replicate (32 * 32 * 3) 0)
  unfold Cifar.image
  dsimp only
  generalize (c.batch.seek (j % 10000 * (32 * 32 * 3 + c.offset) + c.offset)).read (List.replicate (32 * 32 * 3) 0) = r
    at hf hlen
  obtain ⟨d, hd, -⟩ := imageData_total (order := c.order) (image := r.2) (by rw [hlen, List.length_replicate])
  rw [hd, Exec.bind_ok]
  exact ⟨{ c with batch := r.1 }, ⟨_, rfl⟩, hf⟩

theorem failed_calls : ∀ (calls : List Call) {c : Cifar}, c.batch.fail = true →
    ∃ c', c.calls calls = .ok c' ∧ c'.batch.fail = true := by
  intro calls
  induction calls with
  | nil => intro c h; exact ⟨c, rfl, h⟩
  | cons k ks ih =>
    intro c h
    have key : ∃ c', c.call k = .ok c' ∧ c'.batch.fail = true := by
      cases k with
      | image i =>
        obtain ⟨⟨q, h1, h2⟩, -⟩ := C93_failed_actual h i
        exact ⟨q, by simp only [Cifar.call, h1, Exec.bind_ok], h2⟩
      | label i =>
        obtain ⟨-, ⟨q, h1, h2⟩⟩ := C93_failed_actual h i
        exact ⟨q, by simp only [Cifar.call, h1, Exec.bind_ok], h2⟩
      | entry i =>
        obtain ⟨⟨q, h1, h2⟩, -⟩ := C93_failed_actual h i
        obtain ⟨-, ⟨q', h3, h4⟩⟩ := C93_failed_actual h2 i
        refine ⟨q', ?_, h4⟩
        simp only [Cifar.call, Cifar.entry, h1, Exec.bind_ok, h3]
        cases q'.format <;> rfl
    obtain ⟨c1, h1, h2⟩ := key
    obtain ⟨c2, h3, h4⟩ := ih h2
    exact ⟨c2, by simp only [Cifar.calls, h1, Exec.bind_ok, h3], h4⟩

/-- A file that cannot be opened gives black images with label 0. -/
theorem C93_missing_refuted (coarse : Option (List Char)) (order : Order) (f : Format) (fine : Option (Option (List Char)))
    (i : Nat) : (∃ q, (Cifar.make none coarse order f fine).image i = .ok (q, i % 10000, List.replicate 3072 0)) ∧
      (∃ q, (Cifar.make none coarse order f fine).label i = .ok (q, i % 10000, [0], [0])) := by
  obtain ⟨⟨q, h, -⟩, ⟨q', h', -⟩⟩ := C93_failed_actual (c := Cifar.make none coarse order f fine) rfl i
  exact ⟨⟨q, h⟩, ⟨q', h'⟩⟩

/-- C93 is false: asking once for an image that the file does not contain throws nothing, and afterwards all samples,
also those that the file contains, are black images with label 0, whatever is called in between. -/
theorem C93_poisoned_refuted {format : Format} {order : Order} {batch : List UInt8} (coarse : Option (List Char))
    (f : Format) (fine : Option (Option (List Char))) (hf : format = if fine = none then .cifar10 else f)
    {j : Nat} (hj : ¬ HasRecord format batch j) (calls : List Call) (i : Nat) :
    ∃ c, (Cifar.make (some batch) coarse order f fine).calls (.image j :: calls) = .ok c ∧
      (∃ q, c.image i = .ok (q, i % 10000, List.replicate 3072 0)) ∧
      (∃ q, c.label i = .ok (q, i % 10000, [0], [0])) := by
  obtain ⟨c1, h1, h2⟩ := image_beyond (make_loaded (order := order) (batch := batch) coarse f fine hf) hj
  obtain ⟨c, h3, h4⟩ := failed_calls calls h2
  obtain ⟨⟨q, h, -⟩, ⟨q', h', -⟩⟩ := C93_failed_actual h4 i
  refine ⟨c, ?_, ⟨q, h⟩, ⟨q', h'⟩⟩
  obtain ⟨p, h1⟩ := h1
  simp only [Cifar.calls, Cifar.call, h1, Exec.bind_ok, h3]

/-- A file with one record of CIFAR-10, an image with grey level 9 and label 5: its sample 0 is read, and is black after
sample 1 was asked for. -/
example (coarse : Option (List Char)) :
    (∃ c q, (Cifar.make (some (5 :: List.replicate 3072 9)) coarse .channelMajor .cifar10 none).calls [] = .ok c ∧
      c.image 0 = .ok (q, 0, List.replicate 3072 9)) ∧
    (∃ c q, (Cifar.make (some (5 :: List.replicate 3072 9)) coarse .channelMajor .cifar10 none).calls [.image 1] = .ok c ∧
      c.image 0 = .ok (q, 0, List.replicate 3072 0)) := by
  have hl : (5 :: List.replicate 3072 (9 : UInt8)).length = 3073 := by rw [List.length_cons, List.length_replicate]
  constructor
  · obtain ⟨c, d, h1, h2, ⟨q, h3⟩, -⟩ := C93_records_partial (format := .cifar10) (order := .channelMajor)
      (batch := 5 :: List.replicate 3072 9) coarse .cifar10 none rfl [] (fun k hk => nomatch hk) 0
      (by unfold HasRecord; rw [hl]; decide)
    refine ⟨c, q, h1, ?_⟩
    rw [h3]
    have e : imageBytes .cifar10 (record .cifar10 (5 :: List.replicate 3072 9) (0 % 10000)) = List.replicate 3072 9 := by
      unfold imageBytes record bytes labelBytes
      rw [List.drop_take, List.drop_drop, show 0 % 10000 * (1 + 3072) + 1 = 1 by rfl, List.drop_succ_cons, List.drop_zero,
        List.take_of_length_le (by rw [List.length_replicate]; omega)]
    rw [e] at h2
    rw [← Exec.ok.inj h2]
  · obtain ⟨c, h1, ⟨q, h2⟩, -⟩ := C93_poisoned_refuted (format := .cifar10) (order := .channelMajor)
      (batch := 5 :: List.replicate 3072 9) coarse .cifar10 none rfl (j := 1)
      (by unfold HasRecord; rw [hl]; decide) [] 0
    exact ⟨c, q, h1, h2⟩

/-! ### C66: label names -/

/-- The label names are the lines of the file that are not empty, in order, also an unterminated last one. -/
theorem C66_names {file : List Char} {ls : List (List Char)} {rest : List Char} (h : Lines file ls rest) :
    names (some file) = (ls ++ [rest]).filter (fun l => !l.isEmpty) := by
  unfold names
  dsimp only
  refine nameLines_spec ?_ h.1 h.2.1 ?_
  · rw [h.2.2]
    have : ls.length ≤ (ls.flatMap (fun l => l ++ ['\n'])).length := by
      clear h
      induction ls with
      | nil => simp
      | cons l ls ih => simp only [List.flatMap_cons, List.length_append, List.length_cons] at ih ⊢; omega
    rw [List.length_append]
    omega
  · have := Csv.left_on file
    rw [h.2.2] at this ⊢
    exact this

/-- Coarse names are always read; fine names only for CIFAR-100 with a given path. -/
theorem C66_fields (batch : Option (List UInt8)) (coarse : Option (List Char)) (order : Order) (format : Format)
    (fine : Option (Option (List Char))) :
    (Cifar.make batch coarse order format fine).coarse = names coarse ∧
    (Cifar.make batch coarse order format fine).fine =
      (match format, fine with
      | .cifar100, some f => names f
      | _, _ => []) := by
  unfold Cifar.make
  cases fine <;> cases format <;> simp

example : names (some "cat\n\ndog\nfox".toList) = ["cat".toList, "dog".toList, "fox".toList] := by decide

/-! ### C67: printing images -/

/-- An MNIST image is printed row by row with the grey of each of its bytes. -/
theorem C67_mnist_partial {image : List UInt8} (h : image.length = 784) :
    mnistText image = .ok (picture 28 fun row col => grey ((image.getD (row * 28 + col) 0).toNat)) := by
  unfold mnistText
  refine render_ok fun row hr col hc => ?_
  have hl : row * 28 + col < image.length := by omega
  rw [rd_ok hl, Exec.bind_ok, List.getD_eq_getElem?_getD, List.getElem?_eq_getElem hl]
  exact ⟨rfl, UInt8.toNat_lt _⟩

/-- A CIFAR image is printed row by row with the brightness of its pixels, if none of them exceeds a byte. -/
theorem C67_cifar_partial {image : List UInt8} (h : image.length = 3072) {level : Nat → Nat → Nat}
    (hb : ∀ row < 32, ∀ col < 32, level row col < 256 ∧
      brightness (image.getD (row * 32 + col) 0).toNat (image.getD (1024 + (row * 32 + col)) 0).toNat
        (image.getD (2048 + (row * 32 + col)) 0).toNat = .ok (level row col)) :
    cifarText image = .ok (picture 32 fun row col => grey (level row col)) := by
  unfold cifarText
  refine render_ok fun row hr col hc => ?_
  have h0 : 0 + (row * 32 + col) < image.length := by omega
  have h1 : 32 * 32 + (row * 32 + col) < image.length := by omega
  have h2 : 2 * 32 * 32 + (row * 32 + col) < image.length := by omega
  obtain ⟨hl, hv⟩ := hb row hr col hc
  rw [rd_ok h0, Exec.bind_ok, rd_ok h1, Exec.bind_ok, rd_ok h2, Exec.bind_ok]
  refine ⟨?_, hl⟩
  rw [List.getD_eq_getElem?_getD, List.getD_eq_getElem?_getD, List.getD_eq_getElem?_getD,
    List.getElem?_eq_getElem (by omega), List.getElem?_eq_getElem (by omega), List.getElem?_eq_getElem (by omega)] at hv
  simpa using hv

/-- The claim is false for CIFAR: the formula multiplies where it should add, and a white pixel has a brightness that
does not fit in a byte. -/
theorem C67_white_refuted : brightness 255 255 255 = .ub ∧ cifarText (List.replicate 3072 255) = .ub := by
  have hb : brightness 255 255 255 = .ub := by
    unfold brightness
    rw [if_neg (by norm_num)]
  refine ⟨hb, ?_⟩
  unfold cifarText render
  have hl : ∀ k, k < 3072 → rd (List.replicate 3072 (255 : UInt8)) k = .ok 255 := by
    intro k hk
    rw [rd_ok (by rw [List.length_replicate]; exact hk), List.getElem_replicate]
  have h0 : rd (List.replicate 3072 (255 : UInt8)) (0 + (0 * 32 + 0)) = .ok 255 := hl _ (by omega)
  have h1 : rd (List.replicate 3072 (255 : UInt8)) (32 * 32 + (0 * 32 + 0)) = .ok 255 := hl _ (by omega)
  have h2 : rd (List.replicate 3072 (255 : UInt8)) (2 * 32 * 32 + (0 * 32 + 0)) = .ok 255 := hl _ (by omega)
  unfold forUp
  rw [forFrom, forFrom]
  beta_reduce
  rw [h0, Exec.bind_ok, h1, Exec.bind_ok, h2, Exec.bind_ok,
    show brightness (255 : UInt8).toNat (255 : UInt8).toNat (255 : UInt8).toNat = .ub from hb]
  rfl

/-- Non-vacuity: a reddish image has a brightness that fits, and is shown. -/
example : cifarText (List.replicate 1024 100 ++ List.replicate 1024 20 ++ List.replicate 1024 30) =
    .ok (picture 32 fun _ _ => grey 51) := by
  have hb : brightness 100 20 30 = .ok 51 := by
    unfold brightness
    rw [if_pos (by norm_num)]
    congr 1
    rw [Nat.floor_eq_iff (by norm_num)]
    norm_num
  refine C67_cifar_partial (level := fun _ _ => 51) ?_ fun row hr col hc => ⟨by norm_num, ?_⟩
  · simp only [List.length_append, List.length_replicate]
  · have hk : row * 32 + col < 1024 := by omega
    generalize row * 32 + col = k at hk
    rw [List.getD_eq_getElem?_getD, List.getD_eq_getElem?_getD, List.getD_eq_getElem?_getD]
    rw [List.getElem?_append_left (by simp only [List.length_append, List.length_replicate]; omega),
      List.getElem?_append_left (by simp only [List.length_append, List.length_replicate]; omega),
      List.getElem?_append_left (by simp only [List.length_append, List.length_replicate]; omega),
      List.getElem?_append_right (by simp only [List.length_append, List.length_replicate]; omega),
      List.getElem?_append_right (by simp only [List.length_append, List.length_replicate]; omega)]
    simp only [List.length_append, List.length_replicate, Nat.reduceAdd, Nat.add_sub_cancel_left,
      List.getElem?_replicate, if_pos hk, Option.getD_some]
    exact hb

end Verif.Props

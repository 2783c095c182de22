import Verif.Spec.Images
import Verif.Proofs.Csv
import Mathlib.Tactic.Ring
import Mathlib.Data.List.FinRange
import Mathlib.Data.Fintype.Card
import Mathlib.Data.Fintype.EquivFin
import Mathlib.Data.Set.Function

namespace Verif.Images

open Verif.Js Verif.Spec Verif.Csv

/-! ### Streams -/

/-- The stream is on this file and has not failed. -/
def Ready (s : Bin) (file : List UInt8) : Prop := s.buf = file ∧ s.eof = false ∧ s.fail = false

theorem ready_on (file : List UInt8) : Ready (Bin.on file) file := ⟨rfl, rfl, rfl⟩

theorem read_ok {s : Bin} {file dest : List UInt8} (h : Ready s file) (hl : s.pos + dest.length ≤ file.length) :
    ∃ s', s.read dest = (s', bytes file s.pos dest.length) ∧ Ready s' file ∧ s'.pos = s.pos + dest.length := by
  obtain ⟨h1, h2, h3⟩ := h
  have e : ((s.buf.drop s.pos).take dest.length).length = dest.length := by
    rw [h1, List.length_take, List.length_drop]
    omega
  refine ⟨{ s with pos := s.pos + dest.length }, ?_, ⟨h1, h2, h3⟩, rfl⟩
  unfold Bin.read
  rw [if_neg (by simp [h2, h3])]
  dsimp only
  rw [e, if_neg (by omega), h1]
  rfl

theorem read_short {s : Bin} {file dest : List UInt8} (h : Ready s file) (hl : file.length < s.pos + dest.length)
    (hd : dest ≠ []) : (s.read dest).1.fail = true := by
  obtain ⟨h1, h2, h3⟩ := h
  have hp := List.length_pos_iff.mpr hd
  have e : ((s.buf.drop s.pos).take dest.length).length < dest.length := by
    rw [h1, List.length_take, List.length_drop]
    omega
  unfold Bin.read
  rw [if_neg (by simp [h2, h3])]
  dsimp only
  rw [if_pos e]

theorem read_length (s : Bin) (dest : List UInt8) : (s.read dest).2.length = dest.length := by
  unfold Bin.read
  split
  · rfl
  · dsimp only
    split
    · next h =>
      rw [List.length_append, List.length_drop]
      omega
    · next h =>
      have : ((s.buf.drop s.pos).take dest.length).length ≤ dest.length := List.length_take_le _ _
      show ((s.buf.drop s.pos).take dest.length).length = _
      omega

theorem seek_ready {s : Bin} {file : List UInt8} (h : Ready s file) (p : Nat) :
    Ready (s.seek p) file ∧ (s.seek p).pos = p := by
  unfold Bin.seek
  rw [if_neg (by simp [h.2.2])]
  exact ⟨⟨h.1, rfl, h.2.2⟩, rfl⟩

theorem bytes_length {l : List UInt8} {i n : Nat} (h : i + n ≤ l.length) : (bytes l i n).length = n := by
  unfold bytes
  rw [List.length_take, List.length_drop]
  omega

theorem bytes_bytes {l : List UInt8} {i n j m : Nat} (h : j + m ≤ n) :
    bytes (bytes l i n) j m = bytes l (i + j) m := by
  unfold bytes
  rw [List.drop_take, List.drop_drop, List.take_take]
  congr 1
  omega

theorem bytes_get {l : List UInt8} {i n k : Nat} (h : k < n) : (bytes l i n)[k]? = l[i + k]? := by
  unfold bytes
  rw [List.getElem?_take_of_lt h, List.getElem?_drop]

/-! ### Numbers -/

theorem four {b : List UInt8} (h : b.length = 4) : ∃ x y z w, b = [x, y, z, w] := by
  match b, h with
  | [x, y, z, w], _ => exact ⟨x, y, z, w, rfl⟩

theorem inMemory_order (little : Bool) {b : List UInt8} (h : b.length = 4) :
    inMemory little (endianOrder little b) = number b := by
  obtain ⟨x, y, z, w, rfl⟩ := four h
  cases little <;> simp [inMemory, endianOrder, number] <;> omega

theorem readU32_ok {little : Bool} {s : Bin} {file : List UInt8} (h : Ready s file)
    (hl : s.pos + 4 ≤ file.length) : ∃ s', readU32 little s = .ok (s', number (bytes file s.pos 4)) ∧
      Ready s' file ∧ s'.pos = s.pos + 4 := by
  obtain ⟨s', h1, h2, h3⟩ := read_ok (dest := [0, 0, 0, 0]) h hl
  refine ⟨s', ?_, h2, h3⟩
  unfold readU32
  rw [h1]
  dsimp only
  rw [if_neg (by simp [h2.2.2])]
  show Exec.ok (s', inMemory little (endianOrder little (bytes file s.pos 4))) = _
  rw [inMemory_order little (bytes_length hl)]

theorem readU32_short {little : Bool} {s : Bin} {file : List UInt8} (h : Ready s file)
    (hl : file.length < s.pos + 4) : readU32 little s = .ub := by
  unfold readU32
  dsimp only
  rw [if_pos (read_short (dest := [0, 0, 0, 0]) h hl (by simp))]

/-! ### MNIST -/

/-- Opening files with complete headers. -/
theorem mnist_make {little : Bool} {images labels : List UInt8} (hi : 16 ≤ images.length)
    (hl : 8 ≤ labels.length) :
    (number (bytes images 0 4) = 2051 ∧ number (bytes labels 0 4) = 2049 ∧
      number (bytes images 4 4) = number (bytes labels 4 4) ∧ number (bytes images 8 4) = 28 ∧
      number (bytes images 12 4) = 28 ∧
      ∃ m, Mnist.make little (some images) (some labels) = .ok m ∧ Ready m.images images ∧ Ready m.labels labels ∧
        m.size = number (bytes images 4 4)) ∨
    (¬ (number (bytes images 0 4) = 2051 ∧ number (bytes labels 0 4) = 2049 ∧
      number (bytes images 4 4) = number (bytes labels 4 4) ∧ number (bytes images 8 4) = 28 ∧
      number (bytes images 12 4) = 28) ∧
      ∃ e, Mnist.make little (some images) (some labels) = .throw e) := by
  obtain ⟨i1, a1, b1, c1⟩ := readU32_ok (little := little) (ready_on images) (by simp [Bin.on]; omega)
  obtain ⟨i2, a2, b2, c2⟩ := readU32_ok (little := little) b1 (by rw [c1]; simp [Bin.on]; omega)
  obtain ⟨i3, a3, b3, c3⟩ := readU32_ok (little := little) b2 (by rw [c2, c1]; simp [Bin.on]; omega)
  obtain ⟨i4, a4, b4, c4⟩ := readU32_ok (little := little) b3 (by rw [c3, c2, c1]; simp [Bin.on]; omega)
  obtain ⟨l1, d1, e1, f1⟩ := readU32_ok (little := little) (ready_on labels) (by simp [Bin.on]; omega)
  obtain ⟨l2, d2, e2, f2⟩ := readU32_ok (little := little) e1 (by rw [f1]; simp [Bin.on]; omega)
  have p0 : (Bin.on images).pos = 0 := rfl
  have q0 : (Bin.on labels).pos = 0 := rfl
  rw [p0] at a1 c1
  rw [q0] at d1 f1
  rw [c1] at a2 c2
  rw [c2] at a3 c3
  rw [c3] at a4
  rw [f1] at d2
  simp only [Nat.zero_add, Nat.reduceAdd] at a1 a2 a3 a4 d1 d2
  unfold Mnist.make
  simp only [a1, Exec.bind_ok]
  by_cases k1 : number (bytes images 0 4) = 2051
  · rw [if_neg (by simp [k1])]
    simp only [a2, d1, Exec.bind_ok]
    by_cases k2 : number (bytes labels 0 4) = 2049
    · rw [if_neg (by simp [k2])]
      simp only [d2, Exec.bind_ok]
      by_cases k3 : number (bytes images 4 4) = number (bytes labels 4 4)
      · rw [if_neg (by simp [k3])]
        simp only [a3, a4, Exec.bind_ok]
        by_cases k4 : number (bytes images 8 4) = 28 ∧ number (bytes images 12 4) = 28
        · rw [if_neg (by simp [k4])]
          exact Or.inl ⟨k1, k2, k3, k4.1, k4.2, _, rfl, b4, e2, rfl⟩
        · rw [if_pos (by omega)]
          exact Or.inr ⟨fun h => k4 h.2.2.2, _, rfl⟩
      · rw [if_pos (by omega)]
        exact Or.inr ⟨fun h => k3 h.2.2.1, _, rfl⟩
    · rw [if_pos (by omega)]
      exact Or.inr ⟨fun h => k2 h.2.1, _, rfl⟩
  · rw [if_pos (by omega)]
    exact Or.inr ⟨fun h => k1 h.1, _, rfl⟩

/-- Both streams can be read. -/
structure Open (images labels : List UInt8) (n : Nat) (m : Mnist) : Prop where
  images : Ready m.images images
  labels : Ready m.labels labels
  size : m.size = n

theorem image_spec {images labels : List UInt8} {n : Nat} {m : Mnist} (hp : 0 < n)
    (hs : images.length = 16 + 784 * n) (h : Open images labels n m) (i : Nat) :
    ∃ m', m.image i = .ok (m', i % n, bytes images (16 + 784 * (i % n)) 784) ∧ Open images labels n m' := by
  have hm := Nat.mod_lt i hp
  unfold Mnist.image
  rw [if_neg (by rw [h.size]; omega), h.size]
  dsimp only
  obtain ⟨k1, k2⟩ := seek_ready h.images (16 + i % n * 28 * 28)
  obtain ⟨s', r1, r2, -⟩ := read_ok (dest := List.replicate (28 * 28) 0) k1
    (by rw [k2, List.length_replicate, hs]; omega)
  rw [r1, k2, List.length_replicate]
  refine ⟨{ m with images := s' }, ?_, ⟨r2, h.labels, h.size⟩⟩
  have e : 16 + i % n * 28 * 28 = 16 + 784 * (i % n) := by omega
  rw [e, ← h.size]

theorem label_spec {images labels : List UInt8} {n : Nat} {m : Mnist} (hp : 0 < n)
    (hs : labels.length = 8 + n) (h : Open images labels n m) (i : Nat) :
    ∃ m', m.label i = .ok (m', i % n, bytes labels (8 + i % n) 1) ∧ Open images labels n m' := by
  have hm := Nat.mod_lt i hp
  unfold Mnist.label
  rw [if_neg (by rw [h.size]; omega), h.size]
  dsimp only
  obtain ⟨k1, k2⟩ := seek_ready h.labels (8 + i % n)
  obtain ⟨s', r1, r2, -⟩ := read_ok (dest := [0]) k1 (by rw [k2, hs]; simp; omega)
  rw [r1, k2]
  exact ⟨{ m with labels := s' }, by rw [← h.size]; rfl, ⟨h.images, r2, h.size⟩⟩

theorem entry_spec {images labels : List UInt8} {n : Nat} {m : Mnist} (hp : 0 < n)
    (hi : images.length = 16 + 784 * n) (hs : labels.length = 8 + n) (h : Open images labels n m) (i : Nat) :
    ∃ m', m.entry i = .ok (m', bytes images (16 + 784 * (i % n)) 784 ++ bytes labels (8 + i % n) 1) ∧
      Open images labels n m' := by
  obtain ⟨m1, a1, b1⟩ := image_spec hp hi h i
  obtain ⟨m2, a2, b2⟩ := label_spec hp hs b1 i
  refine ⟨m2, ?_, b2⟩
  unfold Mnist.entry
  rw [a1, Exec.bind_ok]
  dsimp only
  rw [a2, Exec.bind_ok]

theorem calls_spec {images labels : List UInt8} {n : Nat} (hp : 0 < n) (hi : images.length = 16 + 784 * n)
    (hs : labels.length = 8 + n) : ∀ (cs : List Call) {m : Mnist}, Open images labels n m →
    ∃ m', m.calls cs = .ok m' ∧ Open images labels n m' := by
  intro cs
  induction cs with
  | nil => intro m h; exact ⟨m, rfl, h⟩
  | cons c cs ih =>
    intro m h
    have key : ∃ m', m.call c = .ok m' ∧ Open images labels n m' := by
      cases c with
      | image i =>
        obtain ⟨m1, a1, b1⟩ := image_spec hp hi h i
        exact ⟨m1, by simp only [Mnist.call, a1, Exec.bind_ok], b1⟩
      | label i =>
        obtain ⟨m1, a1, b1⟩ := label_spec hp hs h i
        exact ⟨m1, by simp only [Mnist.call, a1, Exec.bind_ok], b1⟩
      | entry i =>
        obtain ⟨m1, a1, b1⟩ := entry_spec hp hi hs h i
        exact ⟨m1, by simp only [Mnist.call, a1, Exec.bind_ok], b1⟩
    obtain ⟨m1, a1, b1⟩ := key
    obtain ⟨m2, a2, b2⟩ := ih b1
    exact ⟨m2, by simp only [Mnist.calls, a1, Exec.bind_ok, a2], b2⟩

/-! ### Interleaving channels -/

theorem interleave_pixel {side : Nat} {image ret : List UInt8} {i j : Nat} (hL : image.length = 3 * (side * side))
    (hr : ret.length = image.length) (hi : i < side) (hj : j < side)
    (h : ∀ q ch, q < i * side + j → ch < 3 → ret[q * 3 + ch]? = image[ch * (side * side) + q]?) :
    ∃ ret', (do
      let r ← rd image (0 + i * side + j)
      let ret ← wr ret (i * side * 3 + j * 3) r
      let g ← rd image (side * side + i * side + j)
      let ret ← wr ret (i * side * 3 + j * 3 + 1) g
      let b ← rd image (2 * side * side + i * side + j)
      wr ret (i * side * 3 + j * 3 + 2) b) = .ok ret' ∧ ret'.length = image.length ∧
      ∀ q ch, q < i * side + (j + 1) → ch < 3 → ret'[q * 3 + ch]? = image[ch * (side * side) + q]? := by
  have hb : i * side + j < side * side := by
    have : (i + 1) * side ≤ side * side := Nat.mul_le_mul_right _ hi
    rw [Nat.add_mul] at this
    omega
  have e2 : 2 * side * side = 2 * (side * side) := Nat.mul_assoc _ _ _
  have e3 : i * side * 3 = 3 * (i * side) := by omega
  rw [e2]
  generalize hq : i * side = p at *
  generalize hs : side * side = n at *
  have g1 : 0 + p + j < image.length := by omega
  have g2 : n + p + j < image.length := by omega
  have g3 : 2 * n + p + j < image.length := by omega
  rw [rd_ok g1, Exec.bind_ok]
  unfold wr
  rw [if_pos (by omega), Exec.bind_ok, rd_ok g2, Exec.bind_ok, if_pos (by rw [List.length_set]; omega), Exec.bind_ok,
    rd_ok g3, Exec.bind_ok, if_pos (by rw [List.length_set, List.length_set]; omega)]
  refine ⟨_, rfl, by simp [hr], fun q ch hq' hch => ?_⟩
  simp only [List.getElem?_set, List.length_set]
  by_cases hlt : q < p + j
  · rw [if_neg (by omega), if_neg (by omega), if_neg (by omega)]
    exact h q ch hlt hch
  · have hqe : q = p + j := by omega
    have : ch = 0 ∨ ch = 1 ∨ ch = 2 := by omega
    rcases this with rfl | rfl | rfl
    · rw [if_neg (by omega), if_neg (by omega), if_pos (by omega), if_pos (by omega)]
      have : 0 * n + q = 0 + p + j := by omega
      rw [this, List.getElem?_eq_getElem g1]
    · rw [if_neg (by omega), if_pos (by omega), if_pos (by omega)]
      have : 1 * n + q = n + p + j := by omega
      rw [this, List.getElem?_eq_getElem g2]
    · rw [if_pos (by omega), if_pos (by omega)]
      have : 2 * n + q = 2 * n + p + j := by omega
      rw [this, List.getElem?_eq_getElem g3]

theorem interleave_spec {side : Nat} {image : List UInt8} (hL : image.length = 3 * (side * side)) :
    ∃ ret, interleave side image = .ok ret ∧ ret.length = image.length ∧
      ∀ q ch, q < side * side → ch < 3 → ret[q * 3 + ch]? = image[ch * (side * side) + q]? := by
  unfold interleave
  refine forUp_returns (P := fun i (ret : List UInt8) => ret.length = image.length ∧
    ∀ q ch, q < i * side → ch < 3 → ret[q * 3 + ch]? = image[ch * (side * side) + q]?) ?_ ?_
  · exact ⟨by simp, fun q ch h => by omega⟩
  · rintro i ret hi ⟨h1, h2⟩
    have := forUp_returns (n := side) (s := ret) (body := fun j ret => do
      let r ← rd image (0 + i * side + j)
      let ret ← wr ret (i * side * 3 + j * 3) r
      let g ← rd image (side * side + i * side + j)
      let ret ← wr ret (i * side * 3 + j * 3 + 1) g
      let b ← rd image (2 * side * side + i * side + j)
      wr ret (i * side * 3 + j * 3 + 2) b) (fun j (ret : List UInt8) => ret.length = image.length ∧
      ∀ q ch, q < i * side + j → ch < 3 → ret[q * 3 + ch]? = image[ch * (side * side) + q]?) ⟨h1, h2⟩
      (fun j ret hj hr => by
        obtain ⟨ret', k1, k2, k3⟩ := interleave_pixel hL hr.1 hi hj hr.2
        exact ⟨ret', k1, k2, k3⟩)
    obtain ⟨ret', k1, k2, k3⟩ := this
    refine ⟨ret', k1, k2, fun q ch hq => k3 q ch ?_⟩
    rw [Nat.add_mul] at hq
    omega

/-- A list whose places are those of another one, moved by an injection, is a rearrangement of it. -/
theorem perm_of_moved {α : Type _} {a b : List α} (hl : b.length = a.length) (σ : Nat → Nat)
    (hb : ∀ k < a.length, σ k < a.length) (hi : ∀ k < a.length, ∀ k' < a.length, σ k = σ k' → k = k')
    (h : ∀ k < a.length, b[k]? = a[σ k]?) : b.Perm a := by
  let f : Fin a.length → Fin a.length := fun k => ⟨σ k, hb k k.2⟩
  have hf : Function.Bijective f := Finite.injective_iff_bijective.mp fun k k' e =>
    Fin.ext (hi k k.2 k' k'.2 (Fin.mk.inj e))
  have e1 : a = List.ofFn (fun k : Fin a.length => a[k]) := List.ofFn_getElem.symm
  have e2 : b = List.ofFn ((fun k : Fin a.length => a[k]) ∘ (Equiv.ofBijective f hf)) := by
    apply List.ext_getElem
    · simp [hl]
    · intro k h1 h2
      have hk : k < a.length := hl ▸ h1
      have := h k hk
      rw [List.getElem?_eq_getElem h1, List.getElem?_eq_getElem (hb k hk)] at this
      simpa [f] using this
  rw [e2]
  conv => rhs; rw [e1]
  exact Equiv.Perm.ofFn_comp_perm _ _

theorem interleave_perm {side : Nat} {image : List UInt8} (hL : image.length = 3 * (side * side)) {ret : List UInt8}
    (h : interleave side image = .ok ret) : ret.Perm image := by
  obtain ⟨ret', h1, h2, h3⟩ := interleave_spec hL
  rw [h] at h1
  cases h1
  generalize side * side = n at *
  refine perm_of_moved h2 (fun k => k % 3 * n + k / 3) (fun k hk => ?_) (fun k hk k' hk' e => ?_) (fun k hk => ?_)
  · have : k % 3 = 0 ∨ k % 3 = 1 ∨ k % 3 = 2 := by omega
    rcases this with e | e | e <;> simp only [e] <;> omega
  · have a : k % 3 = 0 ∨ k % 3 = 1 ∨ k % 3 = 2 := by omega
    have b : k' % 3 = 0 ∨ k' % 3 = 1 ∨ k' % 3 = 2 := by omega
    rcases a with a | a | a <;> rcases b with b | b | b <;> simp only [a, b] at e <;> omega
  · have := h3 (k / 3) (k % 3) (by omega) (by omega)
    rw [show k / 3 * 3 + k % 3 = k by omega] at this
    exact this

/-! ### CIFAR -/

/-- The stream can be read. -/
structure Loaded (format : Format) (order : Order) (batch : List UInt8) (c : Cifar) : Prop where
  batch : Ready c.batch batch
  fmt : c.format = format
  ord : c.order = order
  offset : c.offset = labelBytes format

theorem hasRecord_of {format : Format} {batch : List UInt8} (hb : CifarBatch format batch) (i : Nat) :
    HasRecord format batch i := by
  unfold HasRecord
  rw [hb]
  have hm := Nat.mod_lt i (show 0 < 10000 by omega)
  cases format <;> simp only [labelBytes] <;> omega

theorem hasRecord_end {format : Format} {batch : List UInt8} {i : Nat} (hb : HasRecord format batch i) :
    i % 10000 * (32 * 32 * 3 + labelBytes format) + labelBytes format + 3072 ≤ batch.length := by
  have e : i % 10000 * (32 * 32 * 3 + labelBytes format) + labelBytes format + 3072 =
      (i % 10000 + 1) * (labelBytes format + 3072) := by ring
  rw [e]
  exact hb

theorem record_length {format : Format} {batch : List UInt8} {i : Nat} (hb : HasRecord format batch i) :
    (record format batch (i % 10000)).length = labelBytes format + 3072 := by
  refine bytes_length ?_
  unfold HasRecord at hb
  cases format <;> simp only [labelBytes] at hb ⊢ <;> omega

theorem imageData_total {order : Order} {image : List UInt8} (h : image.length = 3072) :
    ∃ d, imageData order image = .ok d ∧ d.length = 3072 := by
  cases order with
  | channelMajor => exact ⟨image, rfl, h⟩
  | rowMajor =>
    obtain ⟨d, h1, h2, -⟩ := interleave_spec (side := 32) (image := image) (by rw [h])
    exact ⟨d, h1, h2.trans h⟩

theorem cifar_image {format : Format} {order : Order} {batch : List UInt8} {c : Cifar}
    (h : Loaded format order batch c) {i : Nat} (hb : HasRecord format batch i) :
    ∃ c' d, c.image i = .ok (c', i % 10000, d) ∧ Loaded format order batch c' ∧
      imageData order ((record format batch (i % 10000)).drop (labelBytes format)) = .ok d := by
  have hlen := record_length hb
  have hend := hasRecord_end hb
  unfold Cifar.image
  dsimp only
  rw [h.offset, h.ord]
  obtain ⟨k1, k2⟩ := seek_ready h.batch (i % 10000 * (32 * 32 * 3 + labelBytes format) + labelBytes format)
  obtain ⟨s', r1, r2, -⟩ := read_ok (dest := List.replicate (32 * 32 * 3) 0) k1 (by
    rw [k2, List.length_replicate]
    exact hend)
  have e : bytes batch (i % 10000 * (32 * 32 * 3 + labelBytes format) + labelBytes format) 3072 =
      (record format batch (i % 10000)).drop (labelBytes format) := by
    unfold record bytes
    rw [List.drop_take, List.drop_drop, show labelBytes format + 3072 - labelBytes format = 3072 by omega,
      Nat.add_comm (labelBytes format) 3072]
  rw [r1, k2, List.length_replicate, show 32 * 32 * 3 = 3072 by rfl, e]
  obtain ⟨d, hd, -⟩ := imageData_total (order := order)
    (image := (record format batch (i % 10000)).drop (labelBytes format)) (by rw [List.length_drop, hlen]; omega)
  rw [hd, Exec.bind_ok]
  exact ⟨{ c with batch := s' }, d, by simp only [← h.offset, ← h.ord], ⟨r2, h.fmt, h.ord, h.offset⟩, rfl⟩

theorem cifar_label {format : Format} {order : Order} {batch : List UInt8} {c : Cifar}
    (h : Loaded format order batch c) {i : Nat} (hb : HasRecord format batch i) :
    ∃ c', c.label i = .ok (c', i % 10000, coarseLabel (record format batch (i % 10000)),
        fineLabel format (record format batch (i % 10000))) ∧
      Loaded format order batch c' := by
  have hend := hasRecord_end hb
  unfold Cifar.label
  dsimp only
  rw [h.offset, h.fmt]
  obtain ⟨k1, k2⟩ := seek_ready h.batch (i % 10000 * (32 * 32 * 3 + labelBytes format))
  obtain ⟨s', r1, r2, r3⟩ := read_ok (dest := [0]) k1 (by
    rw [k2, List.length_singleton]
    omega)
  rw [r1, k2]
  have e1 : bytes batch (i % 10000 * (32 * 32 * 3 + labelBytes format)) 1 =
      coarseLabel (record format batch (i % 10000)) := by
    show _ = bytes (record format batch (i % 10000)) 0 1
    unfold record
    rw [bytes_bytes (by omega), Nat.add_comm (labelBytes format) 3072]
    rfl
  have e2 : labelBytes format = 2 → bytes batch (i % 10000 * (32 * 32 * 3 + labelBytes format) + 1) 1 =
      fineLabel .cifar100 (record format batch (i % 10000)) := by
    intro _
    show _ = bytes (record format batch (i % 10000)) 1 1
    unfold record
    rw [bytes_bytes (by omega), Nat.add_comm (labelBytes format) 3072]
  cases format with
  | cifar10 =>
    refine ⟨{ c with batch := s' }, ?_, ⟨r2, h.fmt, h.ord, h.offset⟩⟩
    simp only [List.length_singleton, e1, h.fmt, h.offset, fineLabel]
  | cifar100 =>
    obtain ⟨s2, q1, q2, -⟩ := read_ok (dest := [0]) r2 (by
      rw [r3, k2, List.length_singleton]
      have : labelBytes .cifar100 = 2 := rfl
      omega)
    rw [r3, k2] at q1
    refine ⟨{ c with batch := s2 }, ?_, ⟨q2, h.fmt, h.ord, h.offset⟩⟩
    simp only [List.length_singleton, e1, q1, e2 rfl, h.fmt, h.offset]

theorem cifar_entry {format : Format} {order : Order} {batch : List UInt8} {c : Cifar}
    (h : Loaded format order batch c) {i : Nat} (hb : HasRecord format batch i) :
    ∃ c' d, c.entry i = .ok (c', d ++ entryLabel format (record format batch (i % 10000))) ∧
      Loaded format order batch c' ∧
      imageData order ((record format batch (i % 10000)).drop (labelBytes format)) = .ok d := by
  obtain ⟨c1, d, a1, b1, hd⟩ := cifar_image h hb
  obtain ⟨c2, a2, b2⟩ := cifar_label b1 hb
  refine ⟨c2, d, ?_, b2, hd⟩
  unfold Cifar.entry
  rw [a1, Exec.bind_ok]
  dsimp only
  rw [a2, Exec.bind_ok]
  dsimp only
  rw [b2.fmt]
  cases format <;> rfl

theorem cifar_calls {format : Format} {order : Order} {batch : List UInt8} :
    ∀ (ks : List Call) {c : Cifar}, (∀ k ∈ ks, HasRecord format batch (callIndex k)) → Loaded format order batch c →
    ∃ c', c.calls ks = .ok c' ∧ Loaded format order batch c' := by
  intro ks
  induction ks with
  | nil => intro c _ h; exact ⟨c, rfl, h⟩
  | cons k ks ih =>
    intro c hk h
    have hb := hk k (by simp)
    have key : ∃ c', c.call k = .ok c' ∧ Loaded format order batch c' := by
      cases k with
      | image i =>
        obtain ⟨m1, d, a1, b1, -⟩ := cifar_image h (i := i) hb
        exact ⟨m1, by simp only [Cifar.call, a1, Exec.bind_ok], b1⟩
      | label i =>
        obtain ⟨m1, a1, b1⟩ := cifar_label h (i := i) hb
        exact ⟨m1, by simp only [Cifar.call, a1, Exec.bind_ok], b1⟩
      | entry i =>
        obtain ⟨m1, d, a1, b1, -⟩ := cifar_entry h (i := i) hb
        exact ⟨m1, by simp only [Cifar.call, a1, Exec.bind_ok], b1⟩
    obtain ⟨m1, a1, b1⟩ := key
    obtain ⟨m2, a2, b2⟩ := ih (fun k hm => hk k (by simp [hm])) b1
    exact ⟨m2, by simp only [Cifar.calls, a1, Exec.bind_ok, a2], b2⟩

/-! ### Names -/

theorem nameLines_eof {s : In} (h : s.eof = true) : ∀ n, nameLines n s = [] := by
  intro n
  cases n with
  | zero => rfl
  | succ n => simp [nameLines, line_bad h]

theorem nameLines_spec : ∀ {n : Nat} {ls : List (List Char)} {rest : List Char} {s : In}, ls.length < n →
    (∀ l ∈ ls, '\n' ∉ l) → '\n' ∉ rest → Left s (ls.flatMap (fun l => l ++ ['\n']) ++ rest) →
    nameLines n s = (ls ++ [rest]).filter (fun l => !l.isEmpty) := by
  intro n
  induction n with
  | zero => intro ls rest s hn; omega
  | succ n ih =>
    intro ls rest s hn hl hr h
    cases ls with
    | nil =>
      obtain ⟨s', h1, h2, h3⟩ := line_last (d := '\n') (p := rest) h hr
      rw [nameLines, h1]
      dsimp only
      rw [nameLines_eof h2]
      cases rest with
      | nil => simp [h3]
      | cons a r => simp [h3]
    | cons l ls =>
      rw [glue_cons] at h
      obtain ⟨s', h1, h2, -⟩ := line_sep h (hl l List.mem_cons_self)
      have := ih (s := s') (ls := ls) (by simpa using hn) (fun r hr => hl r (List.mem_cons_of_mem _ hr)) hr h2
      rw [nameLines, h1]
      dsimp only
      rw [if_neg (by simp [h2.2.1]), this]
      cases l with
      | nil => simp
      | cons a l => simp

/-! ### Printing -/

theorem ramp_length : ramp.length = 70 := by decide

theorem shade_ok {g : Nat} (h : g < 256) : shade g = .ok (grey g) := by
  unfold shade
  rw [ramp_length]
  have hl : g * 70 / 256 < ramp.length := by rw [ramp_length]; omega
  rw [rd_ok hl]
  unfold grey
  rw [List.getD_eq_getElem?_getD, show greys = ramp from rfl, List.getElem?_eq_getElem hl]
  rfl

theorem render_ok {side : Nat} {gray : Nat → Exec Nat} {level : Nat → Nat → Nat}
    (h : ∀ row < side, ∀ col < side, gray (row * side + col) = .ok (level row col) ∧ level row col < 256) :
    render side gray = .ok (picture side fun row col => grey (level row col)) := by
  unfold render
  have key := forUp_returns (n := side) (s := ['\n']) (body := fun i ret => do
    let ret ← forUp side ret fun j ret => do
      let g ← gray (i * side + j)
      let c ← shade g
      .ok (ret ++ [c] ++ [c])
    .ok (ret ++ ['\n'])) (fun i ret => ret = ['\n'] ++ ((List.range i).flatMap fun row =>
    ((List.range side).flatMap fun col => [grey (level row col), grey (level row col)]) ++ ['\n'])) (by simp) (by
      rintro i ret hi rfl
      obtain ⟨pre, hpre⟩ : ∃ pre, pre = ['\n'] ++ ((List.range i).flatMap fun row =>
        ((List.range side).flatMap fun col => [grey (level row col), grey (level row col)]) ++ ['\n']) := ⟨_, rfl⟩
      rw [← hpre]
      have inner := forUp_returns (n := side) (s := pre) (body := fun j ret => do
        let g ← gray (i * side + j)
        let c ← shade g
        .ok (ret ++ [c] ++ [c])) (fun j ret => ret = pre ++ (List.range j).flatMap fun col =>
          [grey (level i col), grey (level i col)]) (by simp) (by
        rintro j ret hj rfl
        obtain ⟨h1, h2⟩ := h i hi j hj
        refine ⟨_, by rw [h1, Exec.bind_ok, shade_ok h2, Exec.bind_ok], ?_⟩
        rw [List.range_succ, List.flatMap_append]
        simp)
      obtain ⟨r, k1, rfl⟩ := inner
      refine ⟨_, by rw [k1, Exec.bind_ok], ?_⟩
      rw [List.range_succ, List.flatMap_append, hpre]
      simp)
  obtain ⟨r, k1, rfl⟩ := key
  rw [k1, Exec.bind_ok]
  rfl

end Verif.Images

import Verif.Model.Csv
import Mathlib.Data.Rat.Floor

/-
Model of /repo/source/parser/mnist.hpp and /repo/source/parser/cifar.hpp: reading images and labels from binary
files.

A file is its sequence of bytes and does not change while it is used.
-/

namespace Verif.Images

open Verif.Js

/-! ### Binary streams -/

/-- A `std::ifstream`: content of the file, position of the next byte, and state bits. -/
structure Bin where
  buf : List UInt8
  pos : Nat
  eof : Bool
  fail : Bool
  deriving DecidableEq

/-- A stream on an open file. -/
def Bin.on (file : List UInt8) : Bin := ⟨file, 0, false, false⟩

/-- A stream that could not be opened. -/
def Bin.closed : Bin := ⟨[], 0, false, true⟩

/-- `seekg(pos, beg)`: clears the end-of-file bit, and moves unless the stream has failed. -/
def Bin.seek (s : Bin) (pos : Nat) : Bin :=
  if s.fail then { s with eof := false } else { s with eof := false, pos := pos }

/-- `read(dest, n)`: the stream and the `n` bytes at `dest` afterwards.  Fewer than `n` bytes left set both bits. -/
def Bin.read (s : Bin) (dest : List UInt8) : Bin × List UInt8 :=
  if s.eof || s.fail then ({ s with fail := true }, dest)
  else
    let b := (s.buf.drop s.pos).take dest.length
    if b.length < dest.length then
      ({ s with pos := s.pos + b.length, eof := true, fail := true }, b ++ dest.drop b.length)
    else ({ s with pos := s.pos + b.length }, b)

/-! ### Byte order -/

/-- The number stored at four bytes of memory, on a processor that keeps the lowest byte first or last. -/
def inMemory (little : Bool) (b : List UInt8) : Nat :=
  let b := if little then b.reverse else b
  b.foldl (fun a x => a * 256 + x.toNat) 0

/-- `uint32_endian_order`, /repo/source/parser/mnist.hpp:55-65: swaps the bytes 0, 3 and 1, 2 of memory. -/
def endianOrder (little : Bool) (b : List UInt8) : List UInt8 :=
  if little then
    match b with
    | [a, b, c, d] => [d, c, b, a]
    | b => b
  else b

/-- `read_uint32_endian_order`, /repo/source/parser/mnist.hpp:73-80.  The variable is not initialized: using it after
a short read is undefined behaviour. -/
def readU32 (little : Bool) (s : Bin) : Exec (Bin × Nat) :=
  let r := s.read [0, 0, 0, 0]
  if r.1.fail then .ub else .ok (r.1, inMemory little (endianOrder little r.2))

/-! ### MNIST -/

/-- `Mnist`, /repo/source/parser/mnist.hpp:441-444. -/
structure Mnist where
  images : Bin
  labels : Bin
  size : Nat
  deriving DecidableEq

/-- Constructor of `Mnist`, /repo/source/parser/mnist.hpp:268-321, with `_is_malformed`, 434-439; no content means
that the file cannot be opened. -/
def Mnist.make (little : Bool) (images labels : Option (List UInt8)) : Exec Mnist :=
  match images, labels with
  | .none, _ => .throw "Images malformed: could not open file"
  | some _, .none => .throw "Labels malformed: could not open file"
  | some images, some labels => do
    let (i, magic) ← readU32 little (Bin.on images)
    if magic ≠ 0x803 then .throw "Images malformed: magic number error"
    else
      let (i, imageCount) ← readU32 little i
      let (l, magic) ← readU32 little (Bin.on labels)
      if magic ≠ 0x801 then .throw "Labels malformed: magic number error"
      else
        let (l, labelCount) ← readU32 little l
        if labelCount ≠ imageCount then .throw "Data malformed: labels amount not match images amount"
        else
          let (i, rows) ← readU32 little i
          let (i, columns) ← readU32 little i
          if rows ≠ 28 ∨ columns ≠ 28 then .throw "Data malformed: not expected image shape"
          else .ok ⟨i, l, imageCount⟩

/-- `image(idx)`, /repo/source/parser/mnist.hpp:371-377, and the constructor of `MnistImage`, 96-104: the object
afterwards, and the index and bytes of the image. -/
def Mnist.image (m : Mnist) (idx : Nat) : Exec (Mnist × Nat × List UInt8) :=
  if m.size = 0 then .ub
  else
    let i := idx % m.size
    let r := (m.images.seek (16 + i * 28 * 28)).read (List.replicate (28 * 28) 0)
    .ok ({ m with images := r.1 }, i, r.2)

/-- `label(idx)`, /repo/source/parser/mnist.hpp:384-390, and the constructor of `MnistLabel`, 186-192: the object
afterwards, and the index and value of the label. -/
def Mnist.label (m : Mnist) (idx : Nat) : Exec (Mnist × Nat × List UInt8) :=
  if m.size = 0 then .ub
  else
    let i := idx % m.size
    let r := (m.labels.seek (8 + i)).read [0]
    .ok ({ m with labels := r.1 }, i, r.2)

/-- `entry(i)`, /repo/source/parser/mnist.hpp:402-409; bytes become numbers without change.  `operator[]`, 397-400,
makes the same calls. -/
def Mnist.entry (m : Mnist) (i : Nat) : Exec (Mnist × List UInt8) := do
  let (m, _, img) ← m.image i
  let (m, _, lab) ← m.label i
  .ok (m, img ++ lab)

/-- `entries_amount()`, `feature_size()` and `labels_idx()`, /repo/source/parser/mnist.hpp:411-424. -/
def Mnist.entries (m : Mnist) : Nat := m.size
def Mnist.features (_ : Mnist) : Nat := 28 * 28 + 1
def Mnist.labelsIdx (m : Mnist) : List Nat := [m.features - 1]

/-- A call on a dataset. -/
inductive Call where
  | image (i : Nat)
  | label (i : Nat)
  | entry (i : Nat)

/-- A call of `image`, `label` or `entry`: the object afterwards. -/
def Mnist.call (m : Mnist) : Call → Exec Mnist
  | .image i => do let r ← m.image i; .ok r.1
  | .label i => do let r ← m.label i; .ok r.1
  | .entry i => do let r ← m.entry i; .ok r.1

/-- A sequence of calls. -/
def Mnist.calls (m : Mnist) : List Call → Exec Mnist
  | [] => .ok m
  | c :: cs => do
    let m ← m.call c
    m.calls cs

/-! ### CIFAR -/

/-- `CifarDataset`, /repo/source/parser/cifar.hpp:49-53. -/
inductive Format where
  | cifar10
  | cifar100
  deriving DecidableEq

/-- `CifarShapeOrder`, /repo/source/parser/cifar.hpp:55-59. -/
inductive Order where
  | channelMajor
  | rowMajor
  deriving DecidableEq

/-- The loop of `CifarImage::data`, /repo/source/parser/cifar.hpp:117-133, for images of any side. -/
def interleave (side : Nat) (image : List UInt8) : Exec (List UInt8) :=
  forUp side (List.replicate image.length 0) fun i ret =>
    forUp side ret fun j ret => do
      let r ← rd image (0 + i * side + j)
      let ret ← wr ret (i * side * 3 + j * 3) r
      let g ← rd image (side * side + i * side + j)
      let ret ← wr ret (i * side * 3 + j * 3 + 1) g
      let b ← rd image (2 * side * side + i * side + j)
      wr ret (i * side * 3 + j * 3 + 2) b

/-- `CifarImage::data`, /repo/source/parser/cifar.hpp:112-139. -/
def imageData (order : Order) (image : List UInt8) : Exec (List UInt8) :=
  match order with
  | .rowMajor => interleave 32 image
  | .channelMajor => .ok image

/-- The loop over the lines of a file of names, /repo/source/parser/cifar.hpp:367-370 and 376-379.  Each successful
call of `std::getline` extracts a character, so that there are at most as many as characters in the file; one more call
ends the loop. -/
def nameLines : Nat → In → List (List Char)
  | 0, _ => []
  | n + 1, s =>
    let r := s.line '\n'
    if r.1.fail then []
    else
      let l := r.2.getD []
      if l.isEmpty then nameLines n r.1 else l :: nameLines n r.1

/-- The names of a file; a file that cannot be opened has none. -/
def names (file : Option (List Char)) : List (List Char) :=
  match file with
  | .none => []
  | some f => nameLines (f.length + 1) (In.on f)

/-- `Cifar`, /repo/source/parser/cifar.hpp:581-601. -/
structure Cifar where
  batch : Bin
  order : Order
  format : Format
  coarse : List (List Char)
  fine : List (List Char)
  offset : Nat
  deriving DecidableEq

/-- Constructor of `Cifar`, /repo/source/parser/cifar.hpp:352-401.  The outer option of the fine names is whether their
path is given (not empty). -/
def Cifar.make (batch : Option (List UInt8)) (coarse : Option (List Char)) (order : Order) (format : Format)
    (fine : Option (Option (List Char))) : Cifar :=
  let fineNames := if fine.isSome ∧ format = .cifar100 then names (fine.getD .none) else []
  let format := if fine.isSome ∧ format = .cifar100 then format else if fine.isNone then .cifar10 else format
  { batch := match batch with | .none => Bin.closed | some b => Bin.on b
    order := order
    format := format
    coarse := names coarse
    fine := fineNames
    offset := match format with | .cifar100 => 2 | .cifar10 => 1 }

/-- `image(idx)`, /repo/source/parser/cifar.hpp:484-493, the constructor of `CifarImage`, 91-101, and `data()`,
112-139: the object afterwards, and the index and bytes of the image. -/
def Cifar.image (c : Cifar) (idx : Nat) : Exec (Cifar × Nat × List UInt8) :=
  let i := idx % 10000
  let r := (c.batch.seek (i * (32 * 32 * 3 + c.offset) + c.offset)).read (List.replicate (32 * 32 * 3) 0)
  do
    let d ← imageData c.order r.2
    .ok ({ c with batch := r.1 }, i, d)

/-- `label(idx)`, /repo/source/parser/cifar.hpp:500-507, and the constructor of `CifarLabel`, 215-237: the object
afterwards, and the index, the coarse and the fine label. -/
def Cifar.label (c : Cifar) (idx : Nat) : Exec (Cifar × Nat × List UInt8 × List UInt8) :=
  let i := idx % 10000
  let r := (c.batch.seek (i * (32 * 32 * 3 + c.offset))).read [0]
  match c.format with
  | .cifar100 =>
    let q := r.1.read [0]
    .ok ({ c with batch := q.1 }, i, r.2, q.2)
  | .cifar10 => .ok ({ c with batch := r.1 }, i, r.2, [0])

/-- `entry(i)`, /repo/source/parser/cifar.hpp:519-540; bytes become numbers without change. -/
def Cifar.entry (c : Cifar) (i : Nat) : Exec (Cifar × List UInt8) := do
  let (c, _, img) ← c.image i
  let (c, _, coarse, fine) ← c.label i
  match c.format with
  | .cifar100 => .ok (c, img ++ fine)
  | .cifar10 => .ok (c, img ++ coarse)

/-- A call of `image`, `label` or `entry`: the object afterwards. -/
def Cifar.call (c : Cifar) : Call → Exec Cifar
  | .image i => do let r ← c.image i; .ok r.1
  | .label i => do let r ← c.label i; .ok r.1
  | .entry i => do let r ← c.entry i; .ok r.1

/-- A sequence of calls. -/
def Cifar.calls (c : Cifar) : List Call → Exec Cifar
  | [] => .ok c
  | k :: ks => do
    let c ← c.call k
    c.calls ks

/-- `entries_amount()`, `feature_size()` and `labels_idx()`, /repo/source/parser/cifar.hpp:542-577. -/
def Cifar.entries (_ : Cifar) : Nat := 10000
def Cifar.features (_ : Cifar) : Nat := 32 * 32 * 3 + 1
def Cifar.labelsIdx (c : Cifar) : List Nat := [c.features - 1]

/-- `shape()`, /repo/source/parser/cifar.hpp:446-456. -/
def Cifar.shape (c : Cifar) : Nat × Nat × Nat :=
  match c.order with
  | .rowMajor => (32, 32, 3)
  | .channelMajor => (3, 32, 32)

/-! ### Printing images -/

/-- The characters from dark to light, /repo/source/parser/mnist.hpp:134 and /repo/source/parser/cifar.hpp:154. -/
def ramp : List Char :=
  "$@B%8&WM#*oahkbdpqwmZO0QLCJUYXzcvunxrjft/\\|()1{}[]?-_+~<>i!lI;:,\"^`'. ".toList

/-- `map[grayscale * ((sizeof(map) - 1) / 256.0)]`, /repo/source/parser/mnist.hpp:142-143 and
/repo/source/parser/cifar.hpp:169-170.  The product is exact in double precision; it is truncated. -/
def shade (gray : Nat) : Exec Char := rd ramp (gray * ramp.length / 256)

/-- The loops that print an image, /repo/source/parser/mnist.hpp:135-150 and /repo/source/parser/cifar.hpp:155-177,
with the grey level of the pixel at each place. -/
def render (side : Nat) (gray : Nat → Exec Nat) : Exec (List Char) := do
  let ret ← forUp side ['\n'] fun i ret => do
    let ret ← forUp side ret fun j ret => do
      let g ← gray (i * side + j)
      let c ← shade g
      .ok (ret ++ [c] ++ [c])
    .ok (ret ++ ['\n'])
  .ok (ret ++ ['\n'])

/-- `MnistImage::operator std::string`, /repo/source/parser/mnist.hpp:131-151. -/
def mnistText (image : List UInt8) : Exec (List Char) :=
  render 28 fun k => do
    let g ← rd image k
    .ok g.toNat

/-- `perception_brightness`, /repo/source/parser/cifar.hpp:68-72, with exact decimal fractions instead of doubles.  The
conversion of a number that does not fit in a byte is undefined behaviour. -/
def brightness (r g b : Nat) : Exec Nat :=
  let v : ℚ := r * (21 / 100) + g * (72 / 100) * b * (7 / 100)
  if v < 256 then .ok ⌊v⌋₊ else .ub

/-- `CifarImage::operator std::string`, /repo/source/parser/cifar.hpp:151-178. -/
def cifarText (image : List UInt8) : Exec (List Char) :=
  render 32 fun k => do
    let r ← rd image (0 + k)
    let g ← rd image (32 * 32 + k)
    let b ← rd image (2 * 32 * 32 + k)
    brightness r.toNat g.toNat b.toNat

end Verif.Images

import Verif.Spec.Csv
import Verif.Model.Images

/-
Specification of the MNIST and CIFAR file formats.
-/

namespace Verif.Spec

/-- `n` bytes from position `i`. -/
def bytes (l : List UInt8) (i n : Nat) : List UInt8 := (l.drop i).take n

/-- The number written with its highest byte first. -/
def number : List UInt8 → Nat
  | [] => 0
  | b :: bs => b.toNat * 256 ^ bs.length + number bs

/-- A pair of MNIST files of `n` samples: images of 28 rows of 28 bytes, and labels of one byte. -/
structure MnistPair (images labels : List UInt8) (n : Nat) : Prop where
  imageMagic : number (bytes images 0 4) = 2051
  imageCount : number (bytes images 4 4) = n
  imageRows : number (bytes images 8 4) = 28
  imageCols : number (bytes images 12 4) = 28
  imageSize : images.length = 16 + 784 * n
  labelMagic : number (bytes labels 0 4) = 2049
  labelCount : number (bytes labels 4 4) = n
  labelSize : labels.length = 8 + n

/-- The number of label bytes of a record of a CIFAR batch. -/
def labelBytes : Images.Format → Nat
  | .cifar10 => 1
  | .cifar100 => 2

/-- A CIFAR batch: ten thousand records of label bytes and 3072 image bytes. -/
def CifarBatch (format : Images.Format) (batch : List UInt8) : Prop :=
  batch.length = 10000 * (labelBytes format + 3072)

/-- The record `i` of a CIFAR batch. -/
def record (format : Images.Format) (batch : List UInt8) (i : Nat) : List UInt8 :=
  bytes batch (i * (labelBytes format + 3072)) (labelBytes format + 3072)

/-- The file is long enough for the record that `image(i)` and `label(i)` are about. -/
def HasRecord (format : Images.Format) (batch : List UInt8) (i : Nat) : Prop :=
  (i % 10000 + 1) * (labelBytes format + 3072) ≤ batch.length

/-- The sample a call is about. -/
def callIndex : Images.Call → Nat
  | .image i => i
  | .label i => i
  | .entry i => i

/-- The call reads the image of sample `i`. -/
def ReadsImage (i : Nat) (c : Images.Call) : Prop := c = .image i ∨ c = .entry i

/-- The coarse label of a record: its first byte. -/
def coarseLabel (r : List UInt8) : List UInt8 := r.take 1

/-- The fine label of a record: its second byte, or zero for CIFAR-10. -/
def fineLabel : Images.Format → List UInt8 → List UInt8
  | .cifar10, _ => [0]
  | .cifar100, r => (r.drop 1).take 1

/-- The label that belongs to a record as an entry of the dataset: the finest one. -/
def entryLabel : Images.Format → List UInt8 → List UInt8
  | .cifar10, r => coarseLabel r
  | .cifar100, r => fineLabel .cifar100 r

/-- The image bytes of a record. -/
def imageBytes (format : Images.Format) (r : List UInt8) : List UInt8 := r.drop (labelBytes format)

/-- The byte of a pixel of an image of `side` rows and columns and three channels, stored one channel after the
other and each one row by row. -/
def channelFirst (side : Nat) (image : List UInt8) (row col channel : Nat) : Option UInt8 :=
  image[channel * (side * side) + row * side + col]?

/-- The byte of a pixel of an image stored row by row, with the channels of each pixel together. -/
def channelLast (side : Nat) (image : List UInt8) (row col channel : Nat) : Option UInt8 :=
  image[(row * side + col) * 3 + channel]?

/-- An image of `side` rows as text: an empty line, each row with every pixel drawn twice, and an empty line. -/
def picture (side : Nat) (draw : Nat → Nat → Char) : List Char :=
  ['\n'] ++ ((List.range side).flatMap fun row =>
    ((List.range side).flatMap fun col => [draw row col, draw row col]) ++ ['\n']) ++ ['\n']

/-- The seventy characters of the grey ramp, from dark to light. -/
def greys : List Char :=
  "$@B%8&WM#*oahkbdpqwmZO0QLCJUYXzcvunxrjft/\\|()1{}[]?-_+~<>i!lI;:,\"^`'. ".toList

/-- The character of a grey level between 0 and 255: the ramp is divided evenly. -/
def grey (level : Nat) : Char := greys.getD (level * 70 / 256) ' '

end Verif.Spec

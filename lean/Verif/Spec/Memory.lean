import Mathlib.Data.Real.Basic

/-
Arrays inside one memory.
-/

namespace Verif.Spec

/-- Component `i` of the array that starts at position `p` (0 outside the memory). -/
def cell (m : List ℝ) (p i : Nat) : ℝ := m.getD (p + i) 0

/-- `m'` is `m` with the `n` numbers from position `dst` on replaced by `v 0, …, v (n-1)`. -/
def Stored (m m' : List ℝ) (dst n : Nat) (v : Nat → ℝ) : Prop :=
  m'.length = m.length ∧ (∀ i, i < n → m'[dst + i]? = some (v i)) ∧
    ∀ j, j < dst ∨ dst + n ≤ j → m'[j]? = m[j]?

/-- The `n` numbers at `p` and the `k` numbers at `q` have no number in common. -/
def NoOverlap (p n q k : Nat) : Prop := p + n ≤ q ∨ q + k ≤ p

/-- The destination does not begin inside the source: the two arrays of `n` numbers are the same,
have nothing in common, or overlap such that the destination begins first. -/
def InPlace (dst src n : Nat) : Prop := dst ≤ src ∨ src + n ≤ dst

end Verif.Spec

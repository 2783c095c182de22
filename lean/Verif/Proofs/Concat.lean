import Verif.Model.Concat
import Verif.Spec.Concat
import Verif.Proofs.Loops
import Mathlib.Tactic.Ring
import Mathlib.Tactic.Linarith

namespace Verif.Concat
open Verif.Spec

variable {α : Type _}

theorem append_returns {dst : List α} {S : List Nat} {src : List α}
    {base A axis off I T D : Nat}
    (ho : offsets S axis = .ok (I, T)) (hD : S[axis]? = some D)
    (hfit : off + A ≤ D) (hdst : I * (T * D) ≤ dst.length)
    (hsrc : base + I * (T * A) ≤ src.length) :
    (append dst S src base A axis off).Returns fun d =>
      d.length = dst.length ∧
      (∀ i k, i < I → k < T * A →
        d[i * (T * D) + T * off + k]? = src[base + (i * (T * A) + k)]?) ∧
      ∀ q, (∀ i k, i < I → k < T * A → i * (T * D) + T * off + k ≠ q) → d[q]? = dst[q]? := by
  have hT : T * off + T * A ≤ T * D := by
    rw [← Nat.mul_add]; exact Nat.mul_le_mul_left T hfit
  unfold append
  rw [ho]
  simp only [Exec.bind_ok, rd_of_some hD]
  apply copyLoop2 src (fun i k => base + (i * (T * A) + k))
    (fun i k => i * (T * D) + T * off + k)
  · intro i k hi hk
    have := rowmajor_lt hi hk
    omega
  · intro i k hi hk
    have : i * (T * D) + (T * off + k) < I * (T * D) := rowmajor_lt hi (by omega)
    omega
  · intro i k i' k' hi hk hi' hk' h
    have := rowmajor_inj (D := T * D) (i := i) (i' := i') (r := T * off + k)
      (r' := T * off + k') (by omega) (by omega) (by omega)
    omega

theorem extract_returns {dst : List α} {S : List Nat} {src : List α}
    {base A axis off I T D : Nat}
    (ho : offsets S axis = .ok (I, T)) (hD : S[axis]? = some D)
    (hfit : off + D ≤ A) (hsrc : I * (T * A) ≤ src.length)
    (hdst : base + I * (T * D) ≤ dst.length) :
    (extract dst base S src A axis off).Returns fun d =>
      d.length = dst.length ∧
      (∀ i k, i < I → k < T * D →
        d[base + (i * (T * D) + k)]? = src[i * (T * A) + T * off + k]?) ∧
      ∀ q, (∀ i k, i < I → k < T * D → base + (i * (T * D) + k) ≠ q) → d[q]? = dst[q]? := by
  have hT : T * off + T * D ≤ T * A := by
    rw [← Nat.mul_add]; exact Nat.mul_le_mul_left T hfit
  unfold extract
  rw [ho]
  simp only [Exec.bind_ok, rd_of_some hD]
  apply copyLoop2 src (fun i k => i * (T * A) + T * off + k)
    (fun i k => base + (i * (T * D) + k))
  · intro i k hi hk
    have : i * (T * A) + (T * off + k) < I * (T * A) := rowmajor_lt hi (by omega)
    omega
  · intro i k hi hk
    have := rowmajor_lt hi hk
    omega
  · intro i k i' k' hi hk hi' hk' h
    exact rowmajor_inj (D := T * D) hk hk' (by omega)

/-- number of outer iterations for a cube -/
def outer (s : Shape3) (axis : Nat) : Nat :=
  if axis = 0 then 1 else if axis = 1 then s.h else s.h * s.w

/-- number of contiguous elements per axis step for a cube -/
def inner (s : Shape3) (axis : Nat) : Nat :=
  if axis = 0 then s.w * s.c else if axis = 1 then s.c else 1

theorem axis_cases {axis : Nat} (h : axis < 3) : axis = 0 ∨ axis = 1 ∨ axis = 2 := by omega

theorem offsets_dims (s : Shape3) {axis : Nat} (h : axis < 3) :
    offsets s.dims axis = .ok (outer s axis, inner s axis) := by
  rcases axis_cases h with rfl | rfl | rfl <;>
    simp [offsets, Shape3.dims, forUp, forFrom, rd, outer, inner]

theorem dims_get (s : Shape3) {axis : Nat} (h : axis < 3) :
    s.dims[axis]? = some (dim s axis) := by
  rcases axis_cases h with rfl | rfl | rfl <;> simp [Shape3.dims, dim]

theorem get_eq_dim (s : Shape3) (axis : Nat) : s.get axis = dim s axis := by
  rcases axis with _ | _ | _ <;> simp [Shape3.get, dim]

theorem set_eq_withDim (s : Shape3) {axis : Nat} (h : axis < 3) (v : Nat) :
    s.set axis v = withDim s axis v := by
  rcases axis_cases h with rfl | rfl | rfl <;> simp [Shape3.set, withDim]

theorem size_eq (s : Shape3) {axis : Nat} (h : axis < 3) :
    s.size = outer s axis * (inner s axis * dim s axis) := by
  rcases axis_cases h with rfl | rfl | rfl <;>
    simp [Shape3.size, outer, inner, dim] <;> ring

/-- The coordinate of a cell along the axis. -/
def coord (axis i j k : Nat) : Nat := if axis = 0 then i else if axis = 1 then j else k

/-- The two shapes agree outside the axis. -/
def Agree (t s : Shape3) (axis : Nat) : Prop :=
  (axis ≠ 0 → t.h = s.h) ∧ (axis ≠ 1 → t.w = s.w) ∧ (axis ≠ 2 → t.c = s.c)

theorem shiftedIdx_zero (s : Shape3) (axis i j k : Nat) :
    shiftedIdx s axis 0 i j k = cellIdx s i j k := by
  simp [shiftedIdx]

/-- Decomposition of a cube coordinate relative to an axis. -/
theorem shiftedIdx_decomp (s : Shape3) {axis i j k : Nat} (h : axis < 3) (hc : InCube s i j k) :
    ∃ p r, p < outer s axis ∧ r < inner s axis ∧
      ∀ t : Shape3, Agree t s axis → ∀ o,
        shiftedIdx t axis o i j k
          = p * (inner s axis * dim t axis) + inner s axis * (o + coord axis i j k) + r := by
  obtain ⟨hi, hj, hk⟩ := hc
  rcases axis_cases h with rfl | rfl | rfl
  · refine ⟨0, j * s.c + k, by simp [outer], by simpa [inner] using rowmajor_lt hj hk, ?_⟩
    rintro t ⟨_, h1, h2⟩ o
    simp at h1 h2
    simp [shiftedIdx, cellIdx, inner, coord, h1, h2]
    ring
  · refine ⟨i, k, by simpa [outer] using hi, by simpa [inner] using hk, ?_⟩
    rintro t ⟨h0, _, h2⟩ o
    simp at h0 h2
    simp [shiftedIdx, cellIdx, inner, dim, coord, h2]
    ring
  · refine ⟨i * s.w + j, 0, by simpa [outer] using rowmajor_lt hi hj, by simp [inner], ?_⟩
    rintro t ⟨h0, h1, _⟩ o
    simp at h0 h1
    simp [shiftedIdx, cellIdx, inner, dim, coord, h1]

theorem coord_lt {s : Shape3} {axis i j k : Nat} (hc : InCube s i j k) :
    coord axis i j k < dim s axis := by
  obtain ⟨hi, hj, hk⟩ := hc
  unfold coord dim
  split
  · exact hi
  · split
    · exact hj
    · exact hk

theorem outer_agree {t s : Shape3} {axis : Nat} (h : axis < 3) (ha : Agree t s axis) :
    outer t axis = outer s axis := by
  obtain ⟨h0, h1, h2⟩ := ha
  rcases axis_cases h with rfl | rfl | rfl <;> simp_all [outer]

theorem inner_agree {t s : Shape3} {axis : Nat} (h : axis < 3) (ha : Agree t s axis) :
    inner t axis = inner s axis := by
  obtain ⟨h0, h1, h2⟩ := ha
  rcases axis_cases h with rfl | rfl | rfl <;> simp_all [inner]

theorem inner_mul_lt {T a r D : Nat} (hr : r < T) (ha : a < D) : T * a + r < T * D := by
  have := rowmajor_lt ha hr
  rwa [Nat.mul_comm a T, Nat.mul_comm D T] at this

theorem append_cube {dst src : List α} {S t : Shape3} {axis base off : Nat}
    (h : axis < 3) (ha : Agree t S axis) (hfit : off + dim t axis ≤ dim S axis)
    (hdst : S.size ≤ dst.length) (hsrc : base + t.size ≤ src.length) :
    (append dst S.dims src base (dim t axis) axis off).Returns fun d =>
      d.length = dst.length ∧
      (∀ i j k, InCube t i j k →
        d[shiftedIdx S axis off i j k]? = src[base + cellIdx t i j k]?) ∧
      (∀ i j k, InCube S i j k →
        (coord axis i j k < off ∨ off + dim t axis ≤ coord axis i j k) →
        d[cellIdx S i j k]? = dst[cellIdx S i j k]?) ∧
      ∀ q, S.size ≤ q → d[q]? = dst[q]? := by
  rw [size_eq S h] at hdst
  have hsz := size_eq t h
  rw [outer_agree h ha, inner_agree h ha] at hsz
  rw [hsz] at hsrc
  have hT : inner S axis * off + inner S axis * dim t axis ≤ inner S axis * dim S axis := by
    rw [← Nat.mul_add]; exact Nat.mul_le_mul_left _ hfit
  refine (append_returns (offsets_dims S h) (dims_get S h) hfit hdst hsrc).mono ?_
  rintro d ⟨hl, hv, hf⟩
  refine ⟨hl, ?_, ?_, ?_⟩
  · intro i j k hc
    obtain ⟨p, r, hp, hr, hdec⟩ := shiftedIdx_decomp t h hc
    have hS : Agree S t axis := ⟨fun x => (ha.1 x).symm, fun x => (ha.2.1 x).symm,
      fun x => (ha.2.2 x).symm⟩
    have e1 := hdec S hS off
    have e2 := hdec t ⟨fun _ => rfl, fun _ => rfl, fun _ => rfl⟩ 0
    rw [shiftedIdx_zero] at e2
    rw [inner_agree h ha] at e1 e2 hr
    rw [outer_agree h ha] at hp
    have hk : inner S axis * coord axis i j k + r < inner S axis * dim t axis :=
      inner_mul_lt hr (coord_lt hc)
    have := hv p _ hp hk
    rw [e1, e2, Nat.mul_add]
    rw [Nat.zero_add]
    rw [show ∀ a b c e : Nat, a + (b + c) + e = a + b + (c + e) by intros; omega]
    rw [this, Nat.add_assoc (p * _)]
  · intro i j k hc hout
    apply hf
    intro p' k' hp' hk' heq
    obtain ⟨p, r, hp, hr, hdec⟩ := shiftedIdx_decomp S h hc
    have e := hdec S ⟨fun _ => rfl, fun _ => rfl, fun _ => rfl⟩ 0
    rw [shiftedIdx_zero, Nat.zero_add] at e
    rw [e] at heq
    have h1 := rowmajor_inj (D := inner S axis * dim S axis) (i := p') (i' := p)
      (r := inner S axis * off + k') (r' := inner S axis * coord axis i j k + r)
      (by omega) (inner_mul_lt hr (coord_lt hc)) (by omega)
    obtain ⟨-, h2⟩ := h1
    rcases hout with hlt | hge
    · have := inner_mul_lt hr hlt
      omega
    · have := Nat.mul_le_mul_left (inner S axis) hge
      rw [Nat.mul_add] at this
      omega
  · intro q hq
    apply hf
    intro p' k' hp' hk' heq
    rw [size_eq S h] at hq
    have : p' * (inner S axis * dim S axis) + (inner S axis * off + k')
      < outer S axis * (inner S axis * dim S axis) := rowmajor_lt hp' (by omega)
    omega

theorem extract_cube {dst src : List α} {S t : Shape3} {axis base off : Nat}
    (h : axis < 3) (ha : Agree t S axis) (hfit : off + dim t axis ≤ dim S axis)
    (hsrc : S.size ≤ src.length) (hdst : base + t.size ≤ dst.length) :
    (extract dst base t.dims src (dim S axis) axis off).Returns fun d =>
      d.length = dst.length ∧
      (∀ i j k, InCube t i j k →
        d[base + cellIdx t i j k]? = src[shiftedIdx S axis off i j k]?) ∧
      ∀ q, (q < base ∨ base + t.size ≤ q) → d[q]? = dst[q]? := by
  have hsz := size_eq t h
  have hS : Agree S t axis := ⟨fun x => (ha.1 x).symm, fun x => (ha.2.1 x).symm,
      fun x => (ha.2.2 x).symm⟩
  rw [size_eq S h, outer_agree h hS, inner_agree h hS] at hsrc
  rw [hsz] at hdst
  refine (extract_returns (offsets_dims t h) (dims_get t h) hfit hsrc hdst).mono ?_
  rintro d ⟨hl, hv, hf⟩
  refine ⟨hl, ?_, ?_⟩
  · intro i j k hc
    obtain ⟨p, r, hp, hr, hdec⟩ := shiftedIdx_decomp t h hc
    have e1 := hdec S hS off
    have e2 := hdec t ⟨fun _ => rfl, fun _ => rfl, fun _ => rfl⟩ 0
    rw [shiftedIdx_zero] at e2
    have hk : inner t axis * coord axis i j k + r < inner t axis * dim t axis :=
      inner_mul_lt hr (coord_lt hc)
    have := hv p _ hp hk
    rw [e1, e2, Nat.zero_add, Nat.mul_add]
    rw [show ∀ a b c e : Nat, a + (b + c) + e = a + b + (c + e) by intros; omega]
    rw [← this, Nat.add_assoc (p * _)]
  · intro q hq
    apply hf
    intro p' k' hp' hk' heq
    rw [hsz] at hq
    have := rowmajor_lt hp' hk'
    omega

theorem checkShapes_ok {msg : String} {s1 s2 : Shape3} {axis : Nat} (h : Joinable s1 s2 axis) :
    checkShapes msg s1 s2 axis = .ok () := by
  obtain ⟨ha, h0, h1, h2⟩ := h
  rcases axis_cases ha with rfl | rfl | rfl <;>
    simp_all [checkShapes, forUp, forFrom, Shape3.get]

theorem checkShapes_throw {msg : String} {s1 s2 : Shape3} {axis : Nat} (ha : axis < 3)
    (h : ¬ Joinable s1 s2 axis) : checkShapes msg s1 s2 axis = .throw msg := by
  rcases axis_cases ha with rfl | rfl | rfl <;>
    simp [Joinable] at h <;>
    simp [checkShapes, forUp, forFrom, Shape3.get]
  · by_cases hw : s1.w = s2.w <;> simp_all
  · by_cases hw : s1.h = s2.h <;> simp_all
  · by_cases hw : s1.h = s2.h <;> simp_all

theorem cellIdx_lt {s : Shape3} {i j k : Nat} (h : InCube s i j k) :
    cellIdx s i j k < s.size :=
  rowmajor_lt (rowmajor_lt h.1 h.2.1) h.2.2

theorem cellIdx_surj {s : Shape3} {q : Nat} (h : q < s.size) :
    ∃ i j k, InCube s i j k ∧ cellIdx s i j k = q := by
  unfold Shape3.size at h
  have hc : 0 < s.c := Nat.pos_of_ne_zero (by rintro hc; simp [hc] at h)
  have hw : 0 < s.w := Nat.pos_of_ne_zero (by rintro hc; simp [hc] at h)
  refine ⟨q / s.c / s.w, q / s.c % s.w, q % s.c, ⟨?_, Nat.mod_lt _ hw, Nat.mod_lt _ hc⟩, ?_⟩
  · exact Nat.div_lt_of_lt_mul (by
      rw [Nat.mul_comm s.w]; exact Nat.div_lt_of_lt_mul (by rwa [Nat.mul_comm s.c]))
  · unfold cellIdx
    rw [Nat.div_add_mod' (q / s.c) s.w, Nat.div_add_mod' q s.c]

theorem joined_eq_withDim {s1 s2 : Shape3} {axis : Nat} (h : axis < 3) :
    s1.set axis (s1.get axis + s2.get axis) = joined s1 s2 axis := by
  rcases axis_cases h with rfl | rfl | rfl <;> simp [Shape3.set, Shape3.get, joined]

theorem dim_joined {s1 s2 : Shape3} {axis : Nat} (h : axis < 3) :
    dim (joined s1 s2 axis) axis = dim s1 axis + dim s2 axis := by
  rcases axis_cases h with rfl | rfl | rfl <;> simp [dim, joined]

theorem agree_joined1 {s1 s2 : Shape3} {axis : Nat} : Agree s1 (joined s1 s2 axis) axis := by
  refine ⟨?_, ?_, ?_⟩ <;> intro h <;> simp [joined, h]

theorem agree_joined2 {s1 s2 : Shape3} {axis : Nat} (h : Joinable s1 s2 axis) :
    Agree s2 (joined s1 s2 axis) axis := by
  obtain ⟨_, h0, h1, h2⟩ := h
  refine ⟨?_, ?_, ?_⟩ <;> intro h <;> simp_all [joined]

theorem inCube_agree {t s : Shape3} {axis i j k : Nat} (ha : Agree t s axis) (h : axis < 3)
    (hd : dim t axis ≤ dim s axis) (hc : InCube t i j k) : InCube s i j k := by
  obtain ⟨h0, h1, h2⟩ := ha
  obtain ⟨hi, hj, hk⟩ := hc
  rcases axis_cases h with rfl | rfl | rfl <;> simp [dim] at * <;>
    refine ⟨?_, ?_, ?_⟩ <;> omega

theorem concatenate2_returns {dst src1 src2 : List α} {s1 s2 : Shape3} {axis : Nat}
    (hj : Joinable s1 s2 axis) (h1 : s1.size ≤ src1.length) (h2 : s2.size ≤ src2.length)
    (hd : (joined s1 s2 axis).size ≤ dst.length) :
    (concatenate2 dst src1 s1 src2 s2 axis).Returns fun d =>
      d.length = dst.length ∧
      (∀ i j k, InCube s1 i j k →
        d[cellIdx (joined s1 s2 axis) i j k]? = src1[cellIdx s1 i j k]?) ∧
      (∀ i j k, InCube s2 i j k →
        d[shiftedIdx (joined s1 s2 axis) axis (dim s1 axis) i j k]? = src2[cellIdx s2 i j k]?) ∧
      ∀ q, (joined s1 s2 axis).size ≤ q → d[q]? = dst[q]? := by
  have ha := hj.1
  unfold concatenate2
  rw [if_neg (by omega), checkShapes_ok hj]
  simp only [Exec.bind_ok, joined_eq_withDim ha]
  simp only [get_eq_dim]
  have hdj := dim_joined (s1 := s1) (s2 := s2) ha
  refine Exec.Returns.bind (append_cube (t := s1) (S := joined s1 s2 axis) (base := 0) (off := 0)
    ha agree_joined1 (by omega) hd (by omega)) ?_
  rintro d1 ⟨hl1, hv1, -, hf1⟩
  refine (append_cube (t := s2) (S := joined s1 s2 axis) (base := 0)
    ha (agree_joined2 hj) (by omega) (by omega) (by omega)).mono ?_
  rintro d2 ⟨hl2, hv2, hk2, hf2⟩
  refine ⟨by omega, ?_, ?_, ?_⟩
  · intro i j k hc
    rw [hk2 i j k (inCube_agree agree_joined1 ha (by omega) hc) (.inl (coord_lt hc))]
    have := hv1 i j k hc
    rwa [shiftedIdx_zero, Nat.zero_add] at this
  · intro i j k hc
    have := hv2 i j k hc
    rwa [Nat.zero_add] at this
  · intro q hq
    rw [hf2 q hq, hf1 q hq]

theorem separate2_returns {dst1 dst2 src : List α} {s1 s2 : Shape3} {axis : Nat}
    (hj : Joinable s1 s2 axis) (h1 : s1.size ≤ dst1.length) (h2 : s2.size ≤ dst2.length)
    (hs : (joined s1 s2 axis).size ≤ src.length) :
    (separate2 dst1 s1 dst2 s2 src axis).Returns fun d =>
      d.1.length = dst1.length ∧ d.2.length = dst2.length ∧
      (∀ i j k, InCube s1 i j k →
        d.1[cellIdx s1 i j k]? = src[cellIdx (joined s1 s2 axis) i j k]?) ∧
      (∀ i j k, InCube s2 i j k →
        d.2[cellIdx s2 i j k]? = src[shiftedIdx (joined s1 s2 axis) axis (dim s1 axis) i j k]?) ∧
      (∀ q, s1.size ≤ q → d.1[q]? = dst1[q]?) ∧ ∀ q, s2.size ≤ q → d.2[q]? = dst2[q]? := by
  have ha := hj.1
  have hdj := dim_joined (s1 := s1) (s2 := s2) ha
  unfold separate2
  rw [if_neg (by omega), checkShapes_ok hj]
  simp only [Exec.bind_ok, get_eq_dim, ← hdj]
  refine Exec.Returns.bind (extract_cube (t := s1) (S := joined s1 s2 axis) (base := 0) (off := 0)
    ha agree_joined1 (by omega) hs (by omega)) ?_
  rintro d1 ⟨hl1, hv1, hf1⟩
  refine Exec.Returns.bind (extract_cube (t := s2) (S := joined s1 s2 axis) (base := 0)
    ha (agree_joined2 hj) (by omega) hs (by omega)) ?_
  rintro d2 ⟨hl2, hv2, hf2⟩
  refine .ok ⟨hl1, hl2, ?_, ?_, ?_, ?_⟩
  · intro i j k hc
    have := hv1 i j k hc
    rwa [shiftedIdx_zero, Nat.zero_add] at this
  · intro i j k hc
    have := hv2 i j k hc
    rwa [Nat.zero_add] at this
  · intro q hq; exact hf1 q (.inr (by omega))
  · intro q hq; exact hf2 q (.inr (by omega))

/-- Every cell of the joined cube comes from one of the two cubes. -/
theorem joined_cover {s1 s2 : Shape3} {axis i j k : Nat} (hj : Joinable s1 s2 axis)
    (hc : InCube (joined s1 s2 axis) i j k) :
    InCube s1 i j k ∨ ∃ i' j' k', InCube s2 i' j' k' ∧
      cellIdx (joined s1 s2 axis) i j k
        = shiftedIdx (joined s1 s2 axis) axis (dim s1 axis) i' j' k' := by
  obtain ⟨ha, h0, h1, h2⟩ := hj
  obtain ⟨hi, hj, hk⟩ := hc
  rcases axis_cases ha with rfl | rfl | rfl <;> simp [joined] at hi hj hk h0 h1 h2
  · by_cases h : i < s1.h
    · exact .inl ⟨h, hj, hk⟩
    · refine .inr ⟨i - s1.h, j, k, ⟨by omega, by omega, by omega⟩, ?_⟩
      simp [shiftedIdx, dim, Nat.add_sub_of_le (Nat.le_of_not_lt h)]
  · by_cases h : j < s1.w
    · exact .inl ⟨hi, h, hk⟩
    · refine .inr ⟨i, j - s1.w, k, ⟨by omega, by omega, by omega⟩, ?_⟩
      simp [shiftedIdx, dim, Nat.add_sub_of_le (Nat.le_of_not_lt h)]
  · by_cases h : k < s1.c
    · exact .inl ⟨hi, hj, h⟩
    · refine .inr ⟨i, j, k - s1.c, ⟨by omega, by omega, by omega⟩, ?_⟩
      simp [shiftedIdx, dim, Nat.add_sub_of_le (Nat.le_of_not_lt h)]

/-- Two buffers of the size of a cube are equal when all cells agree. -/
theorem ext_cells {s : Shape3} {l1 l2 : List α} (h1 : l1.length = s.size) (h2 : l2.length = s.size)
    (h : ∀ i j k, InCube s i j k → l1[cellIdx s i j k]? = l2[cellIdx s i j k]?) : l1 = l2 := by
  apply List.ext_getElem?
  intro q
  by_cases hq : q < s.size
  · obtain ⟨i, j, k, hc, rfl⟩ := cellIdx_surj hq
    exact h i j k hc
  · rw [List.getElem?_eq_none (by omega), List.getElem?_eq_none (by omega)]

theorem forUp_not_throw {σ : Type _} {n : Nat} {s : σ} {body : Nat → σ → Exec σ}
    (h : ∀ i s m, body i s ≠ .throw m) : ∀ m, forUp n s body ≠ .throw m := by
  induction n with
  | zero => intro m; simp
  | succ n ih =>
    intro m
    rw [forUp_succ]
    cases hx : forUp n s body with
    | ok a => simpa using h n a m
    | throw m' => exact absurd hx (ih m')
    | ub => simp

theorem append_not_throw {dst : List α} {S : List Nat} {src : List α} {b a x o : Nat} (m : String) :
    append dst S src b a x o ≠ .throw m := by
  have hrd : ∀ {β : Type} (l : List β) i m, rd l i ≠ .throw m := by
    intro β l i m; unfold rd; split <;> simp
  unfold append
  cases ho : offsets S x with
  | throw m' =>
    exfalso
    refine forUp_not_throw ?_ m' ho
    intro i s m
    unfold rd
    split
    · simp only [Exec.bind_ok]; split
      · simp
      · split <;> simp
    · simp
  | ub => simp
  | ok p =>
    simp only [Exec.bind_ok]
    unfold rd
    split
    · simp only [Exec.bind_ok]
      apply forUp_not_throw
      intro i s m
      apply forUp_not_throw
      intro i s m
      split
      · simp only [Exec.bind_ok]; unfold wr; split <;> simp
      · simp
    · simp

/-! ### N cubes -/

theorem sum_take_succ (l : List Nat) {n : Nat} (h : n < l.length) :
    (l.take (n + 1)).sum = (l.take n).sum + l[n] := by
  rw [List.take_add_one, List.sum_append, List.getElem?_eq_getElem h]
  simp

theorem sum_take_le (l : List Nat) (n : Nat) : (l.take n).sum ≤ l.sum := by
  conv => rhs; rw [← List.take_append_drop n l]
  rw [List.sum_append]
  omega

theorem sum_take_mono (l : List Nat) {m n : Nat} (h : m ≤ n) : (l.take m).sum ≤ (l.take n).sum := by
  have := sum_take_le (l.take n) m
  rwa [List.take_take, Nat.min_eq_left h] at this

theorem prefix_find (l : List Nat) {a : Nat} (h : a < l.sum) :
    ∃ m, ∃ hm : m < l.length, (l.take m).sum ≤ a ∧ a < (l.take m).sum + l[m] := by
  induction l generalizing a with
  | nil => simp at h
  | cons x l ih =>
    by_cases hx : a < x
    · exact ⟨0, by simp, by simp, by simpa using hx⟩
    · obtain ⟨m, hm, h1, h2⟩ := ih (a := a - x) (by simp at h; omega)
      refine ⟨m + 1, by simpa using hm, ?_, ?_⟩
      · simp; omega
      · simp; omega

theorem extent_take_succ (shapes : List Shape3) (axis : Nat) {n : Nat} (h : n < shapes.length) :
    extent (shapes.take (n + 1)) axis = extent (shapes.take n) axis + dim shapes[n] axis := by
  unfold extent
  rw [List.map_take, List.map_take, sum_take_succ _ (by simpa using h)]
  simp

theorem extent_take_mono (shapes : List Shape3) (axis : Nat) {m n : Nat} (h : m ≤ n) :
    extent (shapes.take m) axis ≤ extent (shapes.take n) axis := by
  unfold extent
  rw [List.map_take, List.map_take]
  exact sum_take_mono _ h

theorem extent_take_le (shapes : List Shape3) (axis n : Nat) :
    extent (shapes.take n) axis ≤ extent shapes axis := by
  unfold extent
  rw [List.map_take]
  exact sum_take_le _ n

theorem volume_take_succ (shapes : List Shape3) {n : Nat} (h : n < shapes.length) :
    volume (shapes.take (n + 1)) = volume (shapes.take n) + shapes[n].size := by
  unfold volume
  rw [List.map_take, List.map_take, sum_take_succ _ (by simpa using h)]
  simp [Shape3.size]

theorem volume_take_mono (shapes : List Shape3) {m n : Nat} (h : m ≤ n) :
    volume (shapes.take m) ≤ volume (shapes.take n) := by
  unfold volume
  rw [List.map_take, List.map_take]
  exact sum_take_mono _ h

theorem volume_take_le (shapes : List Shape3) (n : Nat) :
    volume (shapes.take n) ≤ volume shapes := by
  unfold volume
  rw [List.map_take]
  exact sum_take_le _ n

theorem extent_find (shapes : List Shape3) {axis a : Nat} (h : a < extent shapes axis) :
    ∃ m, ∃ hm : m < shapes.length, extent (shapes.take m) axis ≤ a ∧
      a < extent (shapes.take m) axis + dim shapes[m] axis := by
  obtain ⟨m, hm, h1, h2⟩ := prefix_find _ h
  refine ⟨m, by simpa using hm, ?_, ?_⟩
  · simpa [extent, List.map_take] using h1
  · simpa [extent, List.map_take] using h2

theorem volume_find (shapes : List Shape3) {a : Nat} (h : a < volume shapes) :
    ∃ m, ∃ hm : m < shapes.length, volume (shapes.take m) ≤ a ∧
      a < volume (shapes.take m) + shapes[m].size := by
  obtain ⟨m, hm, h1, h2⟩ := prefix_find _ h
  refine ⟨m, by simpa using hm, ?_, ?_⟩
  · simpa [volume, List.map_take] using h1
  · simpa [volume, List.map_take, Shape3.size] using h2

theorem shifted_as_cell {t S : Shape3} {axis o i j k : Nat} (h : axis < 3) (ha : Agree t S axis)
    (hfit : o + dim t axis ≤ dim S axis) (hc : InCube t i j k) :
    ∃ i' j' k', InCube S i' j' k' ∧ cellIdx S i' j' k' = shiftedIdx S axis o i j k ∧
      coord axis i' j' k' = o + coord axis i j k := by
  refine ⟨_, _, _, ?_, rfl, ?_⟩
  · obtain ⟨h0, h1, h2⟩ := ha
    obtain ⟨hi, hj, hk⟩ := hc
    rcases axis_cases h with rfl | rfl | rfl <;> simp [dim] at * <;>
      refine ⟨?_, ?_, ?_⟩ <;> (try simp) <;> omega
  · rcases axis_cases h with rfl | rfl | rfl <;> simp [coord]

theorem cell_as_shifted {t S : Shape3} {axis o i j k : Nat} (h : axis < 3) (ha : Agree t S axis)
    (hc : InCube S i j k) (h1 : o ≤ coord axis i j k) (h2 : coord axis i j k < o + dim t axis) :
    ∃ i' j' k', InCube t i' j' k' ∧ cellIdx S i j k = shiftedIdx S axis o i' j' k' := by
  obtain ⟨e0, e1, e2⟩ := ha
  obtain ⟨hi, hj, hk⟩ := hc
  rcases axis_cases h with rfl | rfl | rfl <;> simp [coord, dim] at h1 h2 e0 e1 e2
  · refine ⟨i - o, j, k, ⟨by omega, by omega, by omega⟩, ?_⟩
    simp [shiftedIdx, Nat.add_sub_of_le h1]
  · refine ⟨i, j - o, k, ⟨by omega, by omega, by omega⟩, ?_⟩
    simp [shiftedIdx, Nat.add_sub_of_le h1]
  · refine ⟨i, j, k - o, ⟨by omega, by omega, by omega⟩, ?_⟩
    simp [shiftedIdx, Nat.add_sub_of_le h1]

theorem dim_withDim (s : Shape3) {axis v : Nat} (h : axis < 3) : dim (withDim s axis v) axis = v := by
  rcases axis_cases h with rfl | rfl | rfl <;> simp [dim, withDim]

theorem withDim_withDim (s : Shape3) (axis v w : Nat) :
    withDim (withDim s axis v) axis w = withDim s axis w := by
  unfold withDim
  congr 1 <;> split <;> simp_all

theorem withDim_dim (s : Shape3) {axis : Nat} (h : axis < 3) : withDim s axis (dim s axis) = s := by
  rcases axis_cases h with rfl | rfl | rfl <;> simp [dim, withDim]

theorem agree_withDim {s t : Shape3} {axis v : Nat} (hj : Joinable s t axis) :
    Agree t (withDim s axis v) axis := by
  obtain ⟨_, h0, h1, h2⟩ := hj
  refine ⟨?_, ?_, ?_⟩ <;> intro h <;> simp_all [withDim]

theorem checkAllShapes_ok {msg : String} {shapes : List Shape3} {axis : Nat} (hj : AllJoinable shapes axis) :
    checkAllShapes msg shapes axis = .ok () := by
  have := forFrom_returns (body := fun idx (_ : Unit) => do
    let a ← rd shapes (idx - 1)
    let b ← rd shapes idx
    checkShapes msg a b axis) (fun _ _ => True)
    (shapes.length - 1) 1 () trivial ?_
  · obtain ⟨a, h, -⟩ := this
    exact h
  · intro i s h1 h2 _
    rw [rd_ok (by omega), Exec.bind_ok, rd_ok (by omega), Exec.bind_ok,
      checkShapes_ok (hj.2 _ (List.getElem_mem _) _ (List.getElem_mem _))]
    exact .ok trivial

theorem joinable_trans {a b c : Shape3} {axis : Nat} (h1 : Joinable a b axis)
    (h2 : Joinable b c axis) : Joinable a c axis :=
  ⟨h1.1, fun h => (h1.2.1 h).trans (h2.2.1 h), fun h => (h1.2.2.1 h).trans (h2.2.2.1 h),
    fun h => (h1.2.2.2 h).trans (h2.2.2.2 h)⟩

theorem joinable_symm {a b : Shape3} {axis : Nat} (h1 : Joinable a b axis) : Joinable b a axis :=
  ⟨h1.1, fun h => (h1.2.1 h).symm, fun h => (h1.2.2.1 h).symm, fun h => (h1.2.2.2 h).symm⟩

theorem joinable_refl {a : Shape3} {axis : Nat} (h : axis < 3) : Joinable a a axis :=
  ⟨h, fun _ => rfl, fun _ => rfl, fun _ => rfl⟩

/-- If the adjacency check passes, all shapes are pairwise joinable. -/
theorem allJoinable_of_check {msg : String} {axis : Nat} (ha : axis < 3) {shapes : List Shape3}
    (h : ∀ m, checkAllShapes msg shapes axis ≠ .throw m) : AllJoinable shapes axis := by
  have key : ∀ n, n ≤ shapes.length - 1 →
      (forFrom 1 n () fun idx (_ : Unit) => do
        let a ← rd shapes (idx - 1)
        let b ← rd shapes idx
        checkShapes msg a b axis) = .ok () →
      ∀ i, (hi : i < shapes.length) → i ≤ n → ∀ (h0 : 0 < shapes.length),
        Joinable shapes[0] shapes[i] axis := by
    intro n
    induction n with
    | zero =>
      intro _ _ i hi hi0 h0
      have : i = 0 := by omega
      subst this
      exact joinable_refl ha
    | succ n ih =>
      intro hn hok i hi hin h0
      rw [forFrom_append n 1] at hok
      cases hx : (forFrom 1 n () fun idx (_ : Unit) => do
        let a ← rd shapes (idx - 1)
        let b ← rd shapes idx
        checkShapes msg a b axis) with
      | throw m => rw [hx] at hok; simp at hok
      | ub => rw [hx] at hok; simp at hok
      | ok u =>
        rw [hx, Exec.bind_ok] at hok
        by_cases hi' : i ≤ n
        · exact ih (by omega) hx i hi hi' h0
        · have hin : i = n + 1 := by omega
          subst hin
          have hn0 := ih (by omega) hx n (by omega) (Nat.le_refl _) h0
          refine joinable_trans hn0 ?_
          by_contra hnj
          simp only [forFrom] at hok
          rw [rd_ok (by omega), Exec.bind_ok, rd_ok (by omega), Exec.bind_ok] at hok
          have e : (shapes[1 + n - 1]'(by omega)) = shapes[n] := by congr 1; omega
          have e' : (shapes[1 + n]'(by omega)) = shapes[n + 1] := by congr 1; omega
          rw [e, e', checkShapes_throw ha hnj] at hok
          simp at hok
  have hok : checkAllShapes msg shapes axis = .ok () := by
    cases hx : checkAllShapes msg shapes axis with
    | ok u => rfl
    | throw m => exact absurd hx (h m)
    | ub =>
      exfalso
      unfold checkAllShapes at hx
      have : ∀ n, n ≤ shapes.length - 1 → (forFrom 1 n () fun idx (_ : Unit) => do
        let a ← rd shapes (idx - 1)
        let b ← rd shapes idx
        checkShapes msg a b axis) ≠ .ub := by
        intro n
        induction n with
        | zero => intro _ h; simp [forFrom] at h
        | succ n ih =>
          intro hn hub
          rw [forFrom_append n 1] at hub
          cases hx : (forFrom 1 n () fun idx (_ : Unit) => do
            let a ← rd shapes (idx - 1)
            let b ← rd shapes idx
            checkShapes msg a b axis) with
          | throw m => rw [hx] at hub; simp at hub
          | ub => exact ih (by omega) hx
          | ok u =>
            rw [hx, Exec.bind_ok] at hub
            simp only [forFrom] at hub
            rw [rd_ok (by omega), Exec.bind_ok, rd_ok (by omega), Exec.bind_ok] at hub
            by_cases hj : Joinable (shapes[1 + n - 1]'(by omega)) (shapes[1 + n]'(by omega)) axis
            · rw [checkShapes_ok hj] at hub; simp at hub
            · rw [checkShapes_throw ha hj] at hub; simp at hub
      exact this _ (Nat.le_refl _) hx
  refine ⟨ha, ?_⟩
  have hk := key _ (Nat.le_refl _) hok
  intro s hs t ht
  obtain ⟨i, hi, rfl⟩ := List.getElem_of_mem hs
  obtain ⟨j, hj, rfl⟩ := List.getElem_of_mem ht
  exact joinable_trans (joinable_symm (hk i hi (by omega) (by omega)))
    (hk j hj (by omega) (by omega))

theorem concatenateN_returns {dst src : List α} {s0 : Shape3} {shapes : List Shape3} {axis : Nat}
    (hj : AllJoinable shapes axis) (h0 : shapes.head? = some s0)
    (hs : volume shapes ≤ src.length)
    (hd : (withDim s0 axis (extent shapes axis)).size ≤ dst.length) :
    (concatenateN dst src shapes axis).Returns fun d =>
      d.length = dst.length ∧
      (∀ m, (hm : m < shapes.length) → ∀ i j k, InCube shapes[m] i j k →
        d[shiftedIdx (withDim s0 axis (extent shapes axis)) axis
            (extent (shapes.take m) axis) i j k]?
          = src[volume (shapes.take m) + cellIdx shapes[m] i j k]?) ∧
      ∀ q, (withDim s0 axis (extent shapes axis)).size ≤ q → d[q]? = dst[q]? := by
  have ha := hj.1
  have hlen : 0 < shapes.length := by
    cases shapes with
    | nil => simp at h0
    | cons a l => simp
  have h00 : shapes[0] = s0 := by
    cases shapes with
    | nil => simp at h0
    | cons a l => simpa using h0
  unfold concatenateN
  rw [if_neg (by omega), checkAllShapes_ok hj]
  simp only [Exec.bind_ok]
  rw [rd_ok hlen, Exec.bind_ok]
  -- destination shape
  refine Exec.Returns.bind (Q := fun d => d = withDim s0 axis (extent shapes axis)) ?_ ?_
  · have := forFrom_returns (body := fun i (d : Shape3) => do
        let s ← rd shapes i
        pure (d.set axis (d.get axis + s.get axis)))
      (fun n d => d = withDim s0 axis (extent (shapes.take n) axis)) (shapes.length - 1) 1
      shapes[0] ?_ ?_
    · refine this.mono ?_
      intro a h
      rw [h, show 1 + (shapes.length - 1) = shapes.length by omega, List.take_length]
    · rw [h00, show (1 : Nat) = 0 + 1 from rfl, extent_take_succ shapes axis hlen, h00]
      simp [extent, withDim_dim _ ha]
    · rintro i d h1 h2 rfl
      rw [rd_ok (by omega), Exec.bind_ok]
      refine .ok ?_
      rw [set_eq_withDim _ ha, withDim_withDim, get_eq_dim, get_eq_dim, dim_withDim _ ha,
        extent_take_succ shapes axis (by omega)]
  rintro _ rfl
  have hag : ∀ m, (hm : m < shapes.length) →
      Agree shapes[m] (withDim s0 axis (extent shapes axis)) axis := by
    intro m hm
    apply agree_withDim
    have := hj.2 _ (List.getElem_mem hlen) _ (List.getElem_mem hm)
    rwa [h00] at this
  have hdS := dim_withDim s0 (v := extent shapes axis) ha
  generalize withDim s0 axis (extent shapes axis) = S at *
  refine Exec.Returns.bind (Q := fun st => st.1.length = dst.length ∧
      (∀ m, (hm : m < shapes.length) → ∀ i j k, InCube shapes[m] i j k →
        st.1[shiftedIdx S axis (extent (shapes.take m) axis) i j k]?
          = src[volume (shapes.take m) + cellIdx shapes[m] i j k]?) ∧
      ∀ q, S.size ≤ q → st.1[q]? = dst[q]?) ?_ ?_
  · refine (forUp_returns (fun n (st : List α × Nat × Nat) => st.1.length = dst.length ∧
      st.2.1 = extent (shapes.take n) axis ∧ st.2.2 = volume (shapes.take n) ∧
      (∀ m, (hm : m < shapes.length) → m < n → ∀ i j k, InCube shapes[m] i j k →
        st.1[shiftedIdx S axis (extent (shapes.take m) axis) i j k]?
          = src[volume (shapes.take m) + cellIdx shapes[m] i j k]?) ∧
      ∀ q, S.size ≤ q → st.1[q]? = dst[q]?) ?_ ?_).mono ?_
    · exact ⟨rfl, by simp [extent], by simp [volume], by intros; omega, fun _ _ => rfl⟩
    · rintro n ⟨d, o, b⟩ hn ⟨hl, ho, hb, hv, hf⟩
      simp only at hl ho hb hv hf ⊢
      rw [rd_ok hn, Exec.bind_ok, get_eq_dim]
      have hfit : o + dim shapes[n] axis ≤ dim S axis := by
        rw [ho, ← extent_take_succ shapes axis hn, hdS]
        exact extent_take_le _ _ _
      have hvol : b + shapes[n].size ≤ src.length := by
        rw [hb, ← volume_take_succ shapes hn]
        exact Nat.le_trans (volume_take_le _ _) hs
      refine Exec.Returns.bind (append_cube ha (hag n hn) hfit (by omega) hvol) ?_
      rintro d' ⟨hl', hv', hk', hf'⟩
      refine .ok ⟨by simp; omega, ?_, ?_, ?_, ?_⟩
      · simp only; rw [extent_take_succ shapes axis hn, ho]
      · simp only; rw [volume_take_succ shapes hn, hb]
      · simp only
        intro m hm hmn i j k hc
        by_cases hmn' : m = n
        · subst hmn'
          rw [← ho, ← hb]
          exact hv' i j k hc
        · have hle : extent (shapes.take m) axis + dim shapes[m] axis ≤ o := by
            rw [ho, ← extent_take_succ shapes axis hm]
            exact extent_take_mono _ _ (by omega)
          obtain ⟨i', j', k', hc', he, hco⟩ := shifted_as_cell ha (hag m hm)
            (o := extent (shapes.take m) axis) (by omega) hc
          rw [← he, hk' i' j' k' hc' ?_, he]
          · exact hv m hm (by omega) i j k hc
          · left
            rw [hco]
            have := coord_lt (axis := axis) hc
            omega
      · intro q hq
        simp only
        rw [hf' q hq, hf q hq]
    · rintro ⟨d, o, b⟩ ⟨hl, _, _, hv, hf⟩
      exact ⟨hl, fun m hm => hv m hm hm, hf⟩
  · rintro ⟨d, o, b⟩ h
    exact .ok h

theorem separateN_returns {dst src : List α} {s0 : Shape3} {shapes : List Shape3} {axis : Nat}
    (hj : AllJoinable shapes axis) (h0 : shapes.head? = some s0)
    (hs : (withDim s0 axis (extent shapes axis)).size ≤ src.length)
    (hd : volume shapes ≤ dst.length) :
    (separateN dst shapes src axis).Returns fun d =>
      d.length = dst.length ∧
      (∀ m, (hm : m < shapes.length) → ∀ i j k, InCube shapes[m] i j k →
        d[volume (shapes.take m) + cellIdx shapes[m] i j k]?
          = src[shiftedIdx (withDim s0 axis (extent shapes axis)) axis
            (extent (shapes.take m) axis) i j k]?) ∧
      ∀ q, volume shapes ≤ q → d[q]? = dst[q]? := by
  have ha := hj.1
  unfold separateN
  rw [if_neg (by omega), checkAllShapes_ok hj]
  simp only [Exec.bind_ok]
  have hmem : s0 ∈ shapes := List.mem_of_head? h0
  refine Exec.Returns.bind (Q := fun t => t = extent shapes axis) ?_ ?_
  · refine (forUp_returns (fun n t => t = extent (shapes.take n) axis) (by simp [extent]) ?_).mono ?_
    · rintro i t hi rfl
      rw [rd_ok hi, Exec.bind_ok]
      refine .ok ?_
      rw [extent_take_succ _ _ hi, get_eq_dim]
    · rintro a rfl; rw [List.take_length]
  rintro _ rfl
  have hag : ∀ m, (hm : m < shapes.length) →
      Agree shapes[m] (withDim s0 axis (extent shapes axis)) axis := by
    intro m hm
    exact agree_withDim (hj.2 _ hmem _ (List.getElem_mem hm))
  have hdS := dim_withDim s0 (v := extent shapes axis) ha
  generalize withDim s0 axis (extent shapes axis) = S at *
  rw [← hdS]
  refine Exec.Returns.bind (Q := fun st => st.1.length = dst.length ∧
      (∀ m, (hm : m < shapes.length) → ∀ i j k, InCube shapes[m] i j k →
        st.1[volume (shapes.take m) + cellIdx shapes[m] i j k]?
          = src[shiftedIdx S axis (extent (shapes.take m) axis) i j k]?) ∧
      ∀ q, volume shapes ≤ q → st.1[q]? = dst[q]?) ?_ ?_
  · refine (forUp_returns (fun n (st : List α × Nat × Nat) => st.1.length = dst.length ∧
      st.2.1 = extent (shapes.take n) axis ∧ st.2.2 = volume (shapes.take n) ∧
      (∀ m, (hm : m < shapes.length) → m < n → ∀ i j k, InCube shapes[m] i j k →
        st.1[volume (shapes.take m) + cellIdx shapes[m] i j k]?
          = src[shiftedIdx S axis (extent (shapes.take m) axis) i j k]?) ∧
      ∀ q, volume shapes ≤ q → st.1[q]? = dst[q]?) ?_ ?_).mono ?_
    · exact ⟨rfl, by simp [extent], by simp [volume], by intros; omega, fun _ _ => rfl⟩
    · rintro n ⟨d, o, b⟩ hn ⟨hl, ho, hb, hv, hf⟩
      simp only at hl ho hb hv hf ⊢
      rw [rd_ok hn, Exec.bind_ok, get_eq_dim]
      have hfit : o + dim shapes[n] axis ≤ dim S axis := by
        rw [ho, ← extent_take_succ shapes axis hn, hdS]
        exact extent_take_le _ _ _
      have hvs : b + shapes[n].size ≤ volume shapes := by
        rw [hb, ← volume_take_succ shapes hn]
        exact volume_take_le _ _
      refine Exec.Returns.bind (extract_cube ha (hag n hn) hfit hs (by omega)) ?_
      rintro d' ⟨hl', hv', hf'⟩
      refine .ok ⟨by simp; omega, ?_, ?_, ?_, ?_⟩
      · simp only; rw [extent_take_succ shapes axis hn, ho]
      · simp only; rw [volume_take_succ shapes hn, hb]
      · simp only
        intro m hm hmn i j k hc
        by_cases hmn' : m = n
        · subst hmn'
          rw [← ho, ← hb]
          exact hv' i j k hc
        · rw [hf' _ (.inl ?_)]
          · exact hv m hm (by omega) i j k hc
          · have h1 := cellIdx_lt hc
            have h2 := volume_take_succ shapes hm
            have h3 := volume_take_mono shapes (m := m + 1) (n := n) (by omega)
            omega
      · intro q hq
        simp only
        rw [hf' q (.inr (by omega)), hf q hq]
    · rintro ⟨d, o, b⟩ ⟨hl, _, _, hv, hf⟩
      exact ⟨hl, fun m hm => hv m hm hm, hf⟩
  · rintro ⟨d, o, b⟩ h
    exact .ok h

theorem size_agree_eq {s t : Shape3} {axis : Nat} (h : axis < 3) (ha : Agree t s axis) :
    t.size = outer s axis * (inner s axis * dim t axis) := by
  rw [size_eq t h, outer_agree h ha, inner_agree h ha]

theorem size_withDim_extent {s0 : Shape3} {shapes : List Shape3} {axis : Nat}
    (hj : AllJoinable shapes axis) (h0 : shapes.head? = some s0) :
    (withDim s0 axis (extent shapes axis)).size = volume shapes := by
  have hmem : s0 ∈ shapes := List.mem_of_head? h0
  have hall : ∀ t ∈ shapes, Joinable s0 t axis := fun t ht => hj.2 _ hmem _ ht
  have hS : Agree (withDim s0 axis (extent shapes axis)) s0 axis := by
    refine ⟨?_, ?_, ?_⟩ <;> intro h <;> simp [withDim, h]
  rw [size_agree_eq hj.1 hS, dim_withDim _ hj.1]
  clear hS h0 hmem
  have ha := hj.1
  clear hj
  induction shapes with
  | nil => simp [extent, volume]
  | cons t l ih =>
    have ih' := ih (fun t ht => hall t (by simp [ht]))
    have ht := hall t (by simp)
    have hag : Agree t s0 axis := ⟨fun h => (ht.2.1 h).symm, fun h => (ht.2.2.1 h).symm,
      fun h => (ht.2.2.2 h).symm⟩
    have e1 : extent (t :: l) axis = dim t axis + extent l axis := by simp [extent]
    have e2 : volume (t :: l) = t.size + volume l := by simp [volume, Shape3.size]
    rw [e1, e2, ← ih', size_agree_eq ha hag]
    ring

theorem forFrom_not_throw {σ : Type _} {i0 n : Nat} {s : σ} {body : Nat → σ → Exec σ}
    (h : ∀ i s m, body i s ≠ .throw m) : ∀ m, forFrom i0 n s body ≠ .throw m := by
  induction n generalizing i0 s with
  | zero => intro m; simp [forFrom]
  | succ n ih =>
    intro m
    simp only [forFrom]
    cases hx : body i0 s with
    | ok a => simpa using ih m
    | throw m' => exact absurd hx (h _ _ m')
    | ub => simp

theorem rd_not_throw {β : Type _} (l : List β) (i : Nat) (m : String) : rd l i ≠ .throw m := by
  unfold rd; split <;> simp

theorem bind_not_throw {β γ : Type _} {e : Exec β} {f : β → Exec γ} (he : ∀ m, e ≠ .throw m)
    (hf : ∀ a m, f a ≠ .throw m) : ∀ m, (e >>= f) ≠ .throw m := by
  intro m
  cases hx : e with
  | ok a => simpa using hf a m
  | throw m' => exact absurd hx (he m')
  | ub => simp

theorem concatenateN_not_throw {dst src : List α} {shapes : List Shape3} {axis : Nat}
    (hj : AllJoinable shapes axis) (m : String) : concatenateN dst src shapes axis ≠ .throw m := by
  unfold concatenateN
  rw [if_neg (by have := hj.1; omega), checkAllShapes_ok hj]
  simp only [Exec.bind_ok]
  revert m
  apply bind_not_throw (rd_not_throw _ _)
  intro s0
  apply bind_not_throw
  · apply forFrom_not_throw
    intro i s
    apply bind_not_throw (rd_not_throw _ _)
    intro a m; simp
  intro S
  apply bind_not_throw
  · apply forUp_not_throw
    intro i s
    apply bind_not_throw (rd_not_throw _ _)
    intro a
    apply bind_not_throw (fun m => append_not_throw m)
    intro a m; simp
  · rintro ⟨a, b, c⟩ m; simp

end Verif.Concat

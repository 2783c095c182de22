import Verif.Proofs.Concat
import Verif.Spec.Array

/-
`append` and `extract` on arrays of any number of dimensions.
-/

namespace Verif.Concat
open Verif.Spec

variable {α : Type _}

theorem position_lt : ∀ {S ix : List Nat}, Inside S ix → position S ix < S.prod ∨ S = []
  | [], _, _ => .inr rfl
  | d :: ds, [], h => h.elim
  | d :: ds, i :: is, h => by
    refine .inl ?_
    obtain ⟨h1, h2⟩ := h
    rw [List.prod_cons]
    show i * ds.prod + position ds is < _
    rcases position_lt h2 with h3 | rfl
    · exact rowmajor_lt h1 h3
    · cases is with
      | nil => simpa [position] using h1
      | cons _ _ => exact h2.elim

theorem position_bound {S ix : List Nat} (h : Inside S ix) : position S ix < S.prod := by
  rcases position_lt h with h1 | rfl
  · exact h1
  · cases ix with
    | nil => simp [position]
    | cons _ _ => exact h.elim

theorem position_surj : ∀ (S : List Nat) {q : Nat}, q < S.prod → ∃ ix, Inside S ix ∧ position S ix = q
  | [], q, h => ⟨[], trivial, by simp at h; simp [position, h]⟩
  | d :: ds, q, h => by
    rw [List.prod_cons] at h
    have hp : 0 < ds.prod := Nat.pos_of_ne_zero fun e => by rw [e] at h; omega
    obtain ⟨is, h1, h2⟩ := position_surj ds (Nat.mod_lt q hp)
    refine ⟨q / ds.prod :: is, ⟨?_, h1⟩, ?_⟩
    · exact (Nat.div_lt_iff_lt_mul hp).mpr h
    · show q / ds.prod * ds.prod + position ds is = q
      rw [h2, Nat.mul_comm]
      exact Nat.div_add_mod q _

theorem position_split (d : Nat) (post q : List Nat) (x : Nat) : ∀ (pre p : List Nat), p.length = pre.length →
    position (pre ++ d :: post) (p ++ x :: q) = position pre p * (post.prod * d) + post.prod * x + position post q
  | [], [], _ => by
    show x * post.prod + position post q = 0 * _ + _ + _
    rw [Nat.zero_mul, Nat.zero_add, Nat.mul_comm]
  | [], _ :: _, h => by cases h
  | _ :: _, [], h => by cases h
  | e :: pre, i :: p, h => by
    have ih := position_split d post q x pre p (by simpa using h)
    show i * (pre ++ d :: post).prod + position (pre ++ d :: post) (p ++ x :: q) = (i * pre.prod + position pre p) * _ + _ + _
    rw [ih, List.prod_append, List.prod_cons]
    ring

theorem inside_split {d : Nat} {post : List Nat} : ∀ {pre ix : List Nat}, Inside (pre ++ d :: post) ix →
    ∃ p x q, ix = p ++ x :: q ∧ p.length = pre.length ∧ Inside pre p ∧ x < d ∧ Inside post q
  | [], [], h => h.elim
  | [], x :: q, h => ⟨[], x, q, rfl, rfl, trivial, h.1, h.2⟩
  | _ :: _, [], h => h.elim
  | e :: pre, i :: ix, h => by
    obtain ⟨p, x, q, rfl, h2, h3, h4, h5⟩ := inside_split (pre := pre) h.2
    exact ⟨i :: p, x, q, rfl, by simp [h2], ⟨h.1, h3⟩, h4, h5⟩

theorem inside_join {d : Nat} {post q : List Nat} {x : Nat} (hx : x < d) (hq : Inside post q) :
    ∀ {pre p : List Nat}, Inside pre p → Inside (pre ++ d :: post) (p ++ x :: q)
  | [], [], _ => ⟨hx, hq⟩
  | [], _ :: _, h => h.elim
  | _ :: _, [], h => h.elim
  | _ :: _, _ :: _, h => ⟨h.1, inside_join hx hq h.2⟩

theorem offsets_any (S : List Nat) (axis : Nat) :
    offsets S axis = .ok ((S.take axis).prod, (S.drop (axis + 1)).prod) := by
  have key : ∀ n, n ≤ S.length →
      (forUp n ((1 : Nat), (1 : Nat)) fun i s => do
        let d ← rd S i
        if i < axis then pure (s.1 * d, s.2)
        else if i > axis then pure (s.1, s.2 * d)
        else pure s) = .ok (((S.take n).take axis).prod, ((S.take n).drop (axis + 1)).prod) := by
    intro n
    induction n with
    | zero => intro _; rw [forUp_zero]; simp
    | succ n ih =>
      intro hn
      rw [forUp_succ, ih (by omega)]
      have e : S.take (n + 1) = S.take n ++ [S[n]] := by
        rw [List.take_add_one, List.getElem?_eq_getElem (by omega)]
        rfl
      have hl : (S.take n).length = n := by simp; omega
      simp only [Exec.bind_ok, rd_of_some (List.getElem?_eq_getElem (show n < S.length by omega))]
      rcases Nat.lt_trichotomy n axis with h | h | h
      · rw [if_pos h, e, List.take_append, List.drop_append, hl, List.take_of_length_le (l := [S[n]]) (by simp; omega),
          List.drop_eq_nil_of_le (as := [S[n]]) (by simp; omega), List.prod_append, List.prod_append]
        simp
      · rw [if_neg (by omega), if_neg (by omega), e, List.take_append, List.drop_append, hl,
          List.drop_eq_nil_of_le (as := [S[n]]) (by simp; omega), show axis - n = 0 by omega]
        simp
      · rw [if_neg (by omega), if_pos h, e, List.take_append, List.drop_append, hl, show axis + 1 - n = 0 by omega,
          show axis - n = 0 by omega, List.prod_append, List.prod_append]
        simp
  have := key S.length (Nat.le_refl _)
  rw [List.take_length] at this
  exact this

theorem offsets_split {pre post : List Nat} {d : Nat} :
    offsets (pre ++ d :: post) pre.length = .ok (pre.prod, post.prod) := by
  rw [offsets_any, List.take_left, ← List.drop_drop, List.drop_left]
  rfl

/-- `append` on a shape split at the axis. -/
theorem append_array {dst src : List α} {pre post : List Nat} {D A off : Nat} (hfit : off + A ≤ D)
    (hdst : (pre ++ D :: post).prod ≤ dst.length) (hsrc : (pre ++ A :: post).prod ≤ src.length) :
    (append dst (pre ++ D :: post) src 0 A pre.length off).Returns fun d =>
      d.length = dst.length ∧
      (∀ p x q, p.length = pre.length → Inside pre p → x < A → Inside post q →
        d[position (pre ++ D :: post) (p ++ (x + off) :: q)]? = src[position (pre ++ A :: post) (p ++ x :: q)]?) ∧
      (∀ p x q, p.length = pre.length → Inside pre p → x < D → Inside post q → (x < off ∨ off + A ≤ x) →
        d[position (pre ++ D :: post) (p ++ x :: q)]? = dst[position (pre ++ D :: post) (p ++ x :: q)]?) ∧
      ∀ q, (pre ++ D :: post).prod ≤ q → d[q]? = dst[q]? := by
  have ho := offsets_split (d := D) (pre := pre) (post := post)
  have hD : (pre ++ D :: post)[pre.length]? = some D := by simp
  have eD : (pre ++ D :: post).prod = pre.prod * (post.prod * D) := by rw [List.prod_append, List.prod_cons]; ring
  have eA : (pre ++ A :: post).prod = pre.prod * (post.prod * A) := by rw [List.prod_append, List.prod_cons]; ring
  rw [eD] at hdst
  rw [eA] at hsrc
  have hT : post.prod * off + post.prod * A ≤ post.prod * D := by
    rw [← Nat.mul_add]; exact Nat.mul_le_mul_left _ hfit
  refine (append_returns ho hD hfit hdst (by rw [Nat.zero_add]; exact hsrc)).mono ?_
  rintro d ⟨hl, hv, hf⟩
  refine ⟨hl, ?_, ?_, ?_⟩
  · intro p x q hp h1 hx h2
    have := hv (position pre p) (post.prod * x + position post q) (position_bound h1)
      (inner_mul_lt (position_bound h2) hx)
    rw [position_split _ _ _ _ _ _ hp, position_split _ _ _ _ _ _ hp]
    rw [Nat.zero_add, show ∀ a b c e : Nat, a + b + (c + e) = a + (c + b) + e by intros; omega, ← Nat.mul_add,
      ← Nat.add_assoc] at this
    exact this
  · intro p x q hp h1 hx h2 hout
    apply hf
    intro i k hi hk heq
    rw [position_split _ _ _ _ _ _ hp] at heq
    have hb := position_bound h2
    obtain ⟨-, h3⟩ := rowmajor_inj (D := post.prod * D) (i := i) (i' := position pre p) (r := post.prod * off + k)
      (r' := post.prod * x + position post q) (by omega) (inner_mul_lt hb hx) (by omega)
    rcases hout with hlt | hge
    · have := inner_mul_lt hb hlt
      omega
    · have := Nat.mul_le_mul_left post.prod hge
      rw [Nat.mul_add] at this
      omega
  · intro q hq
    apply hf
    intro i k hi hk heq
    rw [eD] at hq
    have : i * (post.prod * D) + (post.prod * off + k) < pre.prod * (post.prod * D) := rowmajor_lt hi (by omega)
    omega

/-- `extract` on a shape split at the axis. -/
theorem extract_array {dst src : List α} {pre post : List Nat} {D A off : Nat} (hfit : off + A ≤ D)
    (hsrc : (pre ++ D :: post).prod ≤ src.length) (hdst : (pre ++ A :: post).prod ≤ dst.length) :
    (extract dst 0 (pre ++ A :: post) src D pre.length off).Returns fun d =>
      d.length = dst.length ∧
      (∀ p x q, p.length = pre.length → Inside pre p → x < A → Inside post q →
        d[position (pre ++ A :: post) (p ++ x :: q)]? = src[position (pre ++ D :: post) (p ++ (x + off) :: q)]?) ∧
      ∀ q, (pre ++ A :: post).prod ≤ q → d[q]? = dst[q]? := by
  have ho := offsets_split (d := A) (pre := pre) (post := post)
  have hA : (pre ++ A :: post)[pre.length]? = some A := by simp
  have eD : (pre ++ D :: post).prod = pre.prod * (post.prod * D) := by rw [List.prod_append, List.prod_cons]; ring
  have eA : (pre ++ A :: post).prod = pre.prod * (post.prod * A) := by rw [List.prod_append, List.prod_cons]; ring
  rw [eA] at hdst
  rw [eD] at hsrc
  refine (extract_returns ho hA hfit hsrc (by rw [Nat.zero_add]; exact hdst)).mono ?_
  rintro d ⟨hl, hv, hf⟩
  refine ⟨hl, ?_, ?_⟩
  · intro p x q hp h1 hx h2
    have := hv (position pre p) (post.prod * x + position post q) (position_bound h1)
      (inner_mul_lt (position_bound h2) hx)
    rw [position_split _ _ _ _ _ _ hp, position_split _ _ _ _ _ _ hp]
    rw [Nat.zero_add, show ∀ a b c e : Nat, a + b + (c + e) = a + (c + b) + e by intros; omega, ← Nat.mul_add,
      ← Nat.add_assoc] at this
    exact this
  · intro q hq
    apply hf
    intro i k hi hk heq
    rw [eA] at hq
    have := rowmajor_lt hi hk
    omega

theorem extract_not_throw {dst : List α} {S : List Nat} {src : List α} {b a x o : Nat} (m : String) :
    extract dst b S src x a o ≠ .throw m := by
  unfold extract
  rw [offsets_any]
  simp only [Exec.bind_ok]
  refine bind_not_throw (rd_not_throw S a) ?_ m
  intro D
  refine forUp_not_throw fun i s => ?_
  refine forUp_not_throw fun i' s' => ?_
  refine bind_not_throw (rd_not_throw src _) ?_
  intro v m4
  unfold wr
  split <;> simp

theorem shape_split {S : List Nat} {axis : Nat} (h : axis < S.length) :
    ∃ pre D post, S = pre ++ D :: post ∧ axis = pre.length ∧ S[axis]? = some D ∧ ∀ v, S.set axis v = pre ++ v :: post := by
  have hp : axis = (S.take axis).length := by simp; omega
  have e : S = S.take axis ++ S[axis] :: S.drop (axis + 1) := by simp
  refine ⟨S.take axis, S[axis], S.drop (axis + 1), e, hp, List.getElem?_eq_getElem h, fun v => ?_⟩
  exact List.set_eq_take_append_cons_drop .. |>.trans (if_pos h)

theorem moved_split {p q : List Nat} {x by_ : Nat} : moved p.length by_ (p ++ x :: q) = p ++ (x + by_) :: q := by
  unfold moved
  induction p with
  | nil => rfl
  | cons a p ih => simpa using ih

end Verif.Concat

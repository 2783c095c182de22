import Verif.Proofs.Array

/-! C90: joining and cutting arrays of any number of dimensions. -/

namespace Verif.Props

open Verif Verif.Concat Verif.Spec

variable {α : Type _}

/-- **C90**: `append_check` of an array whose extent along the axis is `a`, into an array of shape `S` with room for
it from `off` on: the element with coordinates `ix` goes to the coordinates moved by `off` along the axis; the other
elements of the array and the memory behind it do not change; no access leaves the buffers. -/
theorem C90_append_places (dst src : List α) (S : List Nat) (axis a off D : Nat) (hD : S[axis]? = some D)
    (hfit : off + a ≤ D) (hdst : S.prod ≤ dst.length) (hsrc : (S.set axis a).prod ≤ src.length) :
    ∃ d, appendCheck dst S src a axis off = .ok d ∧ d.length = dst.length ∧
      (∀ ix, Inside (S.set axis a) ix → Inside S (moved axis off ix) ∧
        d[position S (moved axis off ix)]? = src[position (S.set axis a) ix]?) ∧
      (∀ ix x, Inside S ix → ix[axis]? = some x → x < off ∨ off + a ≤ x → d[position S ix]? = dst[position S ix]?) ∧
      ∀ q, S.prod ≤ q → d[q]? = dst[q]? := by
  have hax : axis < S.length := by
    by_contra h
    rw [List.getElem?_eq_none (by omega)] at hD
    cases hD
  unfold appendCheck
  rw [if_neg (by omega)]
  obtain ⟨pre, D', post, rfl, rfl, h1, h2⟩ := shape_split hax
  rw [hD] at h1
  cases h1
  rw [h2] at hsrc ⊢
  obtain ⟨d, e, g1, g2, g3, g4⟩ := append_array hfit hdst hsrc
  refine ⟨d, e, g1, ?_, ?_, g4⟩
  · intro ix hix
    obtain ⟨p, x, q, rfl, e1, e2, e3, e4⟩ := inside_split hix
    rw [← e1, moved_split]
    exact ⟨inside_join (by omega) e4 e2, g2 p x q e1 e2 e3 e4⟩
  · intro ix x hix hx hout
    obtain ⟨p, x', q, rfl, e1, e2, e3, e4⟩ := inside_split hix
    rw [← e1] at hx
    have : x' = x := by simpa using hx
    subst this
    exact g3 p x' q e1 e2 e3 e4 hout

/-- `extract_check` of an array of shape `S` out of one whose extent along the axis is `b`: the element with
coordinates `ix` comes from the coordinates moved by `off` along the axis. -/
theorem C90_extract_places (dst src : List α) (S : List Nat) (axis b off A : Nat) (hA : S[axis]? = some A)
    (hfit : off + A ≤ b) (hdst : S.prod ≤ dst.length) (hsrc : (S.set axis b).prod ≤ src.length) :
    ∃ d, extractCheck dst S src b axis off = .ok d ∧ d.length = dst.length ∧
      (∀ ix, Inside S ix → Inside (S.set axis b) (moved axis off ix) ∧
        d[position S ix]? = src[position (S.set axis b) (moved axis off ix)]?) ∧
      ∀ q, S.prod ≤ q → d[q]? = dst[q]? := by
  have hax : axis < S.length := by
    by_contra h
    rw [List.getElem?_eq_none (by omega)] at hA
    cases hA
  unfold extractCheck
  rw [if_neg (by omega)]
  obtain ⟨pre, D', post, rfl, rfl, h1, h2⟩ := shape_split hax
  rw [hA] at h1
  cases h1
  rw [h2] at hsrc ⊢
  obtain ⟨d, e, g1, g2, g3⟩ := extract_array hfit hsrc hdst
  refine ⟨d, e, g1, ?_, g3⟩
  intro ix hix
  obtain ⟨p, x, q, rfl, e1, e2, e3, e4⟩ := inside_split hix
  rw [← e1, moved_split]
  exact ⟨inside_join (by omega) e4 e2, g2 p x q e1 e2 e3 e4⟩

/-- Both throw exactly if there is no such axis, whatever the other arguments. -/
theorem C90_throws_iff (dst src : List α) (S : List Nat) (axis a off : Nat) :
    ((∃ m, appendCheck dst S src a axis off = .throw m) ↔ S.length ≤ axis) ∧
    ((∃ m, extractCheck dst S src a axis off = .throw m) ↔ S.length ≤ axis) := by
  unfold appendCheck extractCheck
  by_cases h : axis ≥ S.length
  · rw [if_pos h, if_pos h]
    exact ⟨⟨fun _ => h, fun _ => ⟨_, rfl⟩⟩, ⟨fun _ => h, fun _ => ⟨_, rfl⟩⟩⟩
  · rw [if_neg h, if_neg h]
    exact ⟨⟨fun ⟨m, e⟩ => absurd e (append_not_throw m), fun e => absurd e h⟩,
      ⟨fun ⟨m, e⟩ => absurd e (extract_not_throw m), fun e => absurd e h⟩⟩

/-- What was appended can be extracted again. -/
theorem C90_extract_append (dst src out : List α) (S : List Nat) (axis a off D : Nat) (hD : S[axis]? = some D)
    (hfit : off + a ≤ D) (hdst : S.prod ≤ dst.length) (hsrc : src.length = (S.set axis a).prod)
    (hout : out.length = src.length) :
    (do let d ← appendCheck dst S src a axis off
        extractCheck out (S.set axis a) d D axis off) = .ok src := by
  have hax : axis < S.length := by
    by_contra h
    rw [List.getElem?_eq_none (by omega)] at hD
    cases hD
  obtain ⟨d, e, h1, h2, _, _⟩ := C90_append_places dst src S axis a off D hD hfit hdst (Nat.le_of_eq hsrc.symm)
  have hback : (S.set axis a).set axis D = S := by
    rw [List.set_set]
    refine List.ext_getElem? fun i => ?_
    rw [List.getElem?_set]
    split
    · subst_vars
      exact hD.symm
    · rfl
  obtain ⟨r, e', g1, g2, _⟩ := C90_extract_places out d (S.set axis a) axis D off a
    (by rw [List.getElem?_set_self hax]) hfit (by omega) (by rw [hback, h1]; exact hdst)
  rw [e]
  show extractCheck out (S.set axis a) d D axis off = _
  rw [e']
  congr 1
  refine List.ext_getElem? fun q => ?_
  by_cases hq : q < src.length
  · obtain ⟨ix, hix, rfl⟩ := position_surj (S.set axis a) (q := q) (by omega)
    rw [(g2 ix hix).2, hback, (h2 ix hix).2]
  · rw [List.getElem?_eq_none (by omega), List.getElem?_eq_none (by omega)]

/-- Four dimensions: an array of shape 2 x 1 x 1 x 2 appended to one of shape 2 x 1 x 3 x 2 at 1 along axis 2. -/
example : appendCheck (List.replicate 12 0) [2, 1, 3, 2] [1, 2, 3, 4] 1 2 1 = .ok [0, 0, 1, 2, 0, 0, 0, 0, 3, 4, 0, 0] ∧
    [2, 1, 3, 2][2]? = some 3 ∧ 1 + 1 ≤ 3 ∧ Inside [2, 1, 1, 2] [1, 0, 0, 1] ∧
    position [2, 1, 3, 2] (moved 2 1 [1, 0, 0, 1]) = 9 := by
  refine ⟨by decide, by decide, by decide, ⟨by decide, by decide, by decide, by decide, trivial⟩, by decide⟩

end Verif.Props

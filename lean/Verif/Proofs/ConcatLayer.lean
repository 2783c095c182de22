import Verif.Model.ConcatLayer
import Verif.Proofs.Concat
import Verif.Proofs.NetLayer

/-
`ConcatenateLayer`: shapes of a new layer, and why feeding it does not work.
-/

namespace Verif.ConcatLayer

open Verif.Spec Verif.Concat

variable {α : Type}

theorem check_ok {shapes : List Shape3} {axis : Nat} (hne : shapes ≠ []) (hj : AllJoinable shapes axis) :
    check shapes axis = .ok () := by
  unfold check
  rw [if_neg hne, if_neg (show ¬ axis ≥ 3 from Nat.not_le.mpr hj.1), checkAllShapes_ok hj]

theorem check_throw {shapes : List Shape3} {axis : Nat} (h : shapes = [] ∨ ¬ AllJoinable shapes axis) :
    ∃ m, check shapes axis = .throw m := by
  unfold check
  by_cases hne : shapes = []
  · exact ⟨_, if_pos hne⟩
  · rw [if_neg hne]
    have hj := h.resolve_left hne
    by_cases ha : axis ≥ 3
    · exact ⟨_, if_pos ha⟩
    · rw [if_neg ha]
      by_contra hc
      exact hj (allJoinable_of_check (by omega) fun m hm => hc ⟨m, hm⟩)

/-- Largest extent along the axis. -/
def widest (shapes : List Shape3) (axis : Nat) : Nat := (shapes.map (dim · axis)).foldr max 0

theorem widest_snoc (l : List Shape3) (s : Shape3) (axis : Nat) :
    widest (l ++ [s]) axis = max (widest l axis) (dim s axis) := by
  unfold widest
  induction l with
  | nil => simp
  | cons a l ih =>
    simp only [List.cons_append, List.map_cons, List.foldr_cons] at *
    rw [ih, Nat.max_assoc]

theorem widest_bound {shapes : List Shape3} {axis : Nat} {s : Shape3} (h : s ∈ shapes) :
    dim s axis ≤ widest shapes axis := by
  unfold widest
  induction shapes with
  | nil => cases h
  | cons a l ih =>
    simp only [List.map_cons, List.foldr_cons]
    rcases List.mem_cons.mp h with rfl | h
    · exact Nat.le_max_left _ _
    · exact Nat.le_trans (ih h) (Nat.le_max_right _ _)

theorem widest_mem {shapes : List Shape3} {axis : Nat} (h : shapes ≠ []) : ∃ s ∈ shapes, dim s axis = widest shapes axis := by
  unfold widest
  induction shapes with
  | nil => exact absurd rfl h
  | cons a l ih =>
    simp only [List.map_cons, List.foldr_cons]
    by_cases hl : l = []
    · subst hl
      exact ⟨a, by simp, by simp⟩
    · obtain ⟨s, hs, he⟩ := ih hl
      rcases Nat.le_total (dim a axis) ((l.map (dim · axis)).foldr max 0) with hm | hm
      · exact ⟨s, by simp [hs], by rw [Nat.max_eq_right hm]; exact he⟩
      · exact ⟨a, by simp, by rw [Nat.max_eq_left hm]⟩

theorem take_snoc {l : List Shape3} {n : Nat} (h : n < l.length) : l.take (n + 1) = l.take n ++ [l[n]] := by
  rw [List.take_add_one, List.getElem?_eq_getElem h]
  rfl

theorem inputShape_ok {s0 : Shape3} {rest : List Shape3} {axis : Nat} (hj : AllJoinable (s0 :: rest) axis) :
    inputShape (s0 :: rest) axis = .ok (withDim s0 axis (widest (s0 :: rest) axis)) := by
  have ha := hj.1
  generalize hsh : s0 :: rest = shapes at *
  have hlen : 0 < shapes.length := by rw [← hsh]; simp
  have h0 : shapes[0] = s0 := by subst hsh; rfl
  unfold inputShape
  rw [check_ok (by rw [← hsh]; simp) hj, Exec.bind_ok, rd_ok hlen, Exec.bind_ok, h0]
  obtain ⟨a, h1, h2⟩ := forFrom_returns (body := fun k (r : Shape3) => do
      let s ← rd shapes k
      .ok (if r.get axis < s.get axis then r.set axis (s.get axis) else r))
    (fun n d => d = withDim s0 axis (widest (shapes.take n) axis)) (shapes.length - 1) 1 s0
    (by
      rw [show (1 : Nat) = 0 + 1 from rfl, take_snoc hlen, widest_snoc, h0]
      simp [widest, withDim_dim _ ha])
    (by
      rintro i d g1 g2 rfl
      beta_reduce
      rw [rd_ok (by omega), Exec.bind_ok]
      refine ⟨_, rfl, ?_⟩
      rw [take_snoc (by omega), widest_snoc, get_eq_dim, get_eq_dim, dim_withDim _ ha]
      split
      · rw [set_eq_withDim _ ha, withDim_withDim, Nat.max_eq_right (by omega)]
      · rw [Nat.max_eq_left (by omega)])
  rw [h1, h2, show 1 + (shapes.length - 1) = shapes.length by omega, List.take_length]

theorem outputShape_ok {s0 : Shape3} {rest : List Shape3} {axis : Nat} (hj : AllJoinable (s0 :: rest) axis) :
    outputShape (s0 :: rest) axis = .ok (withDim s0 axis (extent (s0 :: rest) axis)) := by
  have ha := hj.1
  generalize hsh : s0 :: rest = shapes at *
  have hlen : 0 < shapes.length := by rw [← hsh]; simp
  have h0 : shapes[0] = s0 := by subst hsh; rfl
  unfold outputShape
  rw [check_ok (by rw [← hsh]; simp) hj, Exec.bind_ok, rd_ok hlen, Exec.bind_ok, h0]
  obtain ⟨a, h1, h2⟩ := forFrom_returns (body := fun k (r : Shape3) => do
      let s ← rd shapes k
      .ok (r.set axis (r.get axis + s.get axis)))
    (fun n d => d = withDim s0 axis (extent (shapes.take n) axis)) (shapes.length - 1) 1 s0
    (by
      rw [show (1 : Nat) = 0 + 1 from rfl, extent_take_succ shapes axis hlen, h0]
      simp [extent, withDim_dim _ ha])
    (by
      rintro i d g1 g2 rfl
      beta_reduce
      rw [rd_ok (by omega), Exec.bind_ok]
      refine ⟨_, rfl, ?_⟩
      rw [set_eq_withDim _ ha, withDim_withDim, get_eq_dim, get_eq_dim, dim_withDim _ ha,
        extent_take_succ shapes axis (by omega)])
  rw [h1, h2, show 1 + (shapes.length - 1) = shapes.length by omega, List.take_length]

/-- The layer after construction. -/
def fresh [Zero α] (shapes : List Shape3) (s0 : Shape3) (axis : Nat) : Layer α :=
  ⟨[withDim s0 axis (widest shapes axis)], [withDim s0 axis (extent shapes axis)], axis, 0, ⟨0, 0, 0⟩,
    List.replicate (withDim s0 axis (extent shapes axis)).size 0⟩

theorem new_ok [Zero α] {s0 : Shape3} {rest : List Shape3} {axis : Nat} (hj : AllJoinable (s0 :: rest) axis) :
    new (α := α) (s0 :: rest) axis = .ok (fresh (s0 :: rest) s0 axis) := by
  unfold new
  rw [inputShape_ok hj, Exec.bind_ok, outputShape_ok hj, Exec.bind_ok]
  rfl

theorem new_throw [Zero α] {shapes : List Shape3} {axis : Nat} (h : shapes = [] ∨ ¬ AllJoinable shapes axis) :
    ∃ m, new (α := α) shapes axis = .throw m := by
  obtain ⟨m, hm⟩ := check_throw h
  exact ⟨m, by unfold new inputShape; rw [hm]; rfl⟩

/-- A loop that ends has run every body. -/
theorem forFrom_step {σ : Type} {body : Nat → σ → Exec σ} (P : σ → Prop)
    (keep : ∀ i s s', P s → body i s = .ok s' → P s') : ∀ (k i0 : Nat) (s s' : σ), P s →
      forFrom i0 k s body = .ok s' → ∀ i, i0 ≤ i → i < i0 + k → ∃ t t', P t ∧ body i t = .ok t' := by
  intro k
  induction k with
  | zero => intro i0 s s' _ _ i h1 h2; omega
  | succ k ih =>
    intro i0 s s' hs h i h1 h2
    unfold forFrom at h
    obtain ⟨t, ht, h⟩ := Exec.bind_eq_ok h
    by_cases hi : i = i0
    · subst hi
      exact ⟨s, t, hs, ht⟩
    · exact ih (i0 + 1) t s' (keep _ _ _ hs ht) h i (by omega) (by omega)

/-- Appending behind the end does not return. -/
theorem append_too_far {dst src : List α} {S : Shape3} {axis A off : Nat} (ha : axis < 3) (hS : 0 < S.size) (hA : 0 < A)
    (hlen : dst.length = S.size) (hfar : dim S axis < off + A) : ∀ d, append dst S.dims src 0 A axis off ≠ .ok d := by
  intro d hd
  have hsz := size_eq S ha
  have hI : 0 < outer S axis := Nat.pos_of_ne_zero fun h => by rw [h] at hsz; simp at hsz; omega
  have hT : 0 < inner S axis := Nat.pos_of_ne_zero fun h => by rw [h] at hsz; simp at hsz; omega
  unfold append at hd
  rw [offsets_dims S ha, Exec.bind_ok] at hd
  dsimp only at hd
  rw [rd_of_some (dims_get S ha), Exec.bind_ok] at hd
  have keepIn : ∀ (i k : Nat) (t t' : List α), t.length = dst.length →
      (do
        let v ← rd src (0 + (i * (inner S axis * A) + k))
        wr t (i * (inner S axis * dim S axis) + inner S axis * off + k) v) = .ok t' → t'.length = dst.length := by
    intro i k t t' ht h
    obtain ⟨v, _, h⟩ := Exec.bind_eq_ok h
    rw [wr_length h, ht]
  have keep : ∀ (i : Nat) (t t' : List α), t.length = dst.length →
      (forUp (inner S axis * A) t fun k t => do
        let v ← rd src (0 + (i * (inner S axis * A) + k))
        wr t (i * (inner S axis * dim S axis) + inner S axis * off + k) v) = .ok t' → t'.length = dst.length := by
    intro i t t' ht h
    exact forUp_inv (fun t : List α => t.length = dst.length) (fun k s s' => keepIn i k s s') ht h
  obtain ⟨t, t', ht, h⟩ := forFrom_step (fun t : List α => t.length = dst.length) keep _ 0 dst d rfl hd
    (outer S axis - 1) (by omega) (by omega)
  obtain ⟨u, u', hu, h⟩ := forFrom_step (fun t : List α => t.length = dst.length)
    (fun k s s' => keepIn (outer S axis - 1) k s s') _ 0 t t' ht h (inner S axis * A - 1) (by omega)
    (by have := Nat.mul_pos hT hA; omega)
  obtain ⟨v, _, h⟩ := Exec.bind_eq_ok h
  unfold wr at h
  split at h
  · rename_i hlt
    rw [hu, hlen, hsz] at hlt
    have h1 : inner S axis * (dim S axis + 1) ≤ inner S axis * (off + A) := Nat.mul_le_mul_left _ hfar
    rw [Nat.mul_add, Nat.mul_add, Nat.mul_one] at h1
    have h2 : outer S axis * (inner S axis * dim S axis) =
        (outer S axis - 1) * (inner S axis * dim S axis) + inner S axis * dim S axis := by
      obtain ⟨p, hp⟩ : ∃ p, outer S axis = p + 1 := ⟨outer S axis - 1, by omega⟩
      rw [hp, Nat.add_sub_cancel, Nat.succ_mul]
    have := Nat.mul_pos hT hA
    omega
  · cases h

theorem withDim_pos {s : Shape3} {axis v : Nat} (hs : 0 < s.size) (hv : 0 < v) : 0 < (withDim s axis v).size := by
  unfold Shape3.size at *
  have h1 : 0 < s.h := Nat.pos_of_ne_zero fun h => by rw [h] at hs; simp at hs
  have h2 : 0 < s.w := Nat.pos_of_ne_zero fun h => by rw [h] at hs; simp at hs
  have h3 : 0 < s.c := Nat.pos_of_ne_zero fun h => by rw [h] at hs; simp at hs
  unfold withDim
  dsimp only
  refine Nat.mul_pos (Nat.mul_pos ?_ ?_) ?_ <;> split <;> assumption

theorem dim_pos {s : Shape3} {axis : Nat} (hs : 0 < s.size) : 0 < dim s axis := by
  unfold Shape3.size at hs
  have h1 : 0 < s.h := Nat.pos_of_ne_zero fun h => by rw [h] at hs; simp at hs
  have h2 : 0 < s.w := Nat.pos_of_ne_zero fun h => by rw [h] at hs; simp at hs
  have h3 : 0 < s.c := Nat.pos_of_ne_zero fun h => by rw [h] at hs; simp at hs
  unfold dim
  split
  · assumption
  · split <;> assumption

/-- The first call, as far as the appending. -/
theorem forward_first [Zero α] {shapes : List Shape3} {s0 : Shape3} {axis : Nat} (ha : axis < 3) (x : List α) :
    forward (fresh shapes s0 axis) x = (append (List.replicate (withDim s0 axis (extent shapes axis)).size 0)
      (withDim s0 axis (extent shapes axis)).dims x 0 (widest shapes axis) axis (widest shapes axis) >>= fun out =>
      .ok { (fresh shapes s0 axis : Layer α) with
        out := out
        currentShape := withDim s0 axis (widest shapes axis)
        current := 1 }) := by
  unfold forward
  show (Exec.ok (withDim s0 axis (widest shapes axis)) >>= _) = _
  rw [Exec.bind_ok]
  dsimp only
  rw [if_pos (show (fresh (α := α) shapes s0 axis).current = 0 from rfl)]
  show (Exec.ok (withDim s0 axis (extent shapes axis)) >>= _) = _
  rw [Exec.bind_ok]
  show (Exec.ok (withDim s0 axis (widest shapes axis)) >>= _) = _
  rw [Exec.bind_ok]
  have hd : dimAt (withDim s0 axis (widest shapes axis)) (fresh (α := α) shapes s0 axis).axis =
      .ok (widest shapes axis) := by
    show dimAt _ axis = _
    unfold dimAt Shape3.get?
    rw [dims_get _ ha, dim_withDim _ ha]
  rw [hd, Exec.bind_ok]
  have hg : (withDim s0 axis (widest shapes axis)).get (fresh (α := α) shapes s0 axis).axis = widest shapes axis := by
    show Shape3.get _ axis = _
    rw [get_eq_dim, dim_withDim _ ha]
  rw [hg]
  rfl

/-- The second call throws. -/
theorem forward_second {l : Layer α} {i o : Shape3} (hi : l.inShapes = [i]) (ho : l.outShapes = [o]) (hc : l.current = 1)
    (x : List α) : forward l x = .throw "vector::_M_range_check" := by
  unfold forward
  rw [hi, ho, hc]
  rfl

end Verif.ConcatLayer

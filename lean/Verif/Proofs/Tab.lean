import Verif.Exec
import Verif.Spec.Vec
import Mathlib.Algebra.BigOperators.Group.Finset.Basic
import Mathlib.Algebra.BigOperators.Intervals

/-
Buffers as tabulated functions, function updates, ordered sums.
-/

namespace Verif
open Verif.Spec

variable {α : Type _}

@[simp] theorem tab_length (n : Nat) (f : Nat → α) : (tab n f).length = n := by simp [tab]

theorem tab_getElem? {n i : Nat} (f : Nat → α) (h : i < n) : (tab n f)[i]? = some (f i) := by
  simp [tab, h]

theorem tab_getElem?_none {n i : Nat} (f : Nat → α) (h : n ≤ i) : (tab n f)[i]? = none := by
  simp [tab, h]

theorem tab_congr {n : Nat} {f g : Nat → α} (h : ∀ i, i < n → f i = g i) : tab n f = tab n g := by
  apply List.map_congr_left
  intro i hi
  exact h i (by simpa using hi)

theorem tab_inj {n : Nat} {f g : Nat → α} (h : tab n f = tab n g) {i : Nat} (hi : i < n) :
    f i = g i := by
  have := congrArg (·[i]?) h
  simpa [tab_getElem? _ hi] using this

/-- Function update. -/
def upd (f : Nat → α) (i : Nat) (v : α) : Nat → α := fun k => if k = i then v else f k

@[simp] theorem upd_self (f : Nat → α) (i : Nat) (v : α) : upd f i v i = v := by simp [upd]

theorem upd_ne (f : Nat → α) {i k : Nat} (v : α) (h : k ≠ i) : upd f i v k = f k := by
  simp [upd, h]

@[simp] theorem upd_upd (f : Nat → α) (i : Nat) (v w : α) : upd (upd f i v) i w = upd f i w := by
  funext k; unfold upd; split <;> rfl

theorem rd_tab {n i : Nat} (f : Nat → α) (h : i < n) : rd (tab n f) i = .ok (f i) :=
  rd_of_some (tab_getElem? f h)

theorem tab_set {n i : Nat} (f : Nat → α) (v : α) : (tab n f).set i v = tab n (upd f i v) := by
  apply List.ext_getElem?
  intro k
  by_cases hk : k < n
  · rw [tab_getElem? _ hk]
    by_cases hki : k = i
    · subst hki; simp [hk]
    · rw [List.getElem?_set_ne (Ne.symm hki), tab_getElem? _ hk, upd_ne _ _ hki]
  · rw [List.getElem?_eq_none (by simpa using hk), List.getElem?_eq_none (by simpa using hk)]

theorem wr_tab {n i : Nat} (f : Nat → α) (v : α) (h : i < n) :
    wr (tab n f) i v = .ok (tab n (upd f i v)) := by
  rw [wr_ok (by simpa using h), tab_set]

theorem eq_tab [Zero α] (l : List α) : l = tab l.length (vec l) := by
  apply List.ext_getElem?
  intro k
  by_cases hk : k < l.length
  · rw [tab_getElem? _ hk]; simp [vec, hk]
  · rw [List.getElem?_eq_none (by omega), tab_getElem?_none _ (by omega)]

theorem vec_tab [Zero α] {n i : Nat} (f : Nat → α) (h : i < n) : vec (tab n f) i = f i := by
  simp [vec, List.getD, tab_getElem? f h]

theorem mat_eq_vec [Zero α] (l : List α) (c i j : Nat) : mat l c i j = vec l (i * c + j) := rfl

theorem rd_vec [Zero α] {l : List α} {i : Nat} (h : i < l.length) : rd l i = .ok (vec l i) := by
  rw [rd_ok h]; simp [vec, h]

theorem rd_vec' [Zero α] {l : List α} {i n : Nat} (hn : l.length = n) (h : i < n) :
    rd l i = .ok (vec l i) := rd_vec (by omega)

theorem getElem?_vec [Zero α] {l : List α} {i : Nat} (h : i < l.length) :
    l[i]? = some (vec l i) := by simp [vec, h]

theorem ordSum_congr [Add α] {b : α} {n : Nat} {f g : Nat → α} (h : ∀ i, i < n → f i = g i) :
    ordSum b n f = ordSum b n g := by
  induction n with
  | zero => rfl
  | succ n ih =>
    simp only [ordSum]
    rw [ih (fun i hi => h i (by omega)), h n (by omega)]

open Finset in
theorem ordSum_eq_sum [AddCommMonoid α] (b : α) (n : Nat) (f : Nat → α) :
    ordSum b n f = b + ∑ i ∈ range n, f i := by
  induction n with
  | zero => simp [ordSum]
  | succ n ih => rw [ordSum, ih, sum_range_succ, add_assoc]

/-- A loop whose body writes cell `i` in iteration `i`. -/
theorem forUp_tab {n L : Nat} {f r : Nat → α} {body : Nat → List α → Exec (List α)} (hn : n ≤ L)
    (h : ∀ i g, i < n → body i (tab L g) = .ok (tab L (upd g i (r i)))) :
    forUp n (tab L f) body = .ok (tab L (fun i => if i < n then r i else f i)) := by
  obtain ⟨d, h1, h2⟩ := forUp_returns (n := n) (s := tab L f) (body := body)
    (fun k d => d = tab L (fun i => if i < k then r i else f i)) (by simp)
    (by
      rintro i d hi rfl
      refine ⟨_, h i _ hi, ?_⟩
      apply tab_congr
      intro k hk
      unfold upd
      by_cases hki : k = i
      · subst hki; simp
      · by_cases hlt : k < i
        · simp [hki, hlt, Nat.lt_succ_of_lt hlt]
        · have : ¬ k < i + 1 := by omega
          simp [hki, hlt, this])
  rw [h1, h2]

/-- As `forUp_tab`, where the body may use what it reads at index `i`. -/
theorem forUp_tab_in {n L : Nat} {f : Nat → α} {r : Nat → α → α}
    {body : Nat → List α → Exec (List α)} (hn : n ≤ L)
    (h : ∀ i g, i < n → body i (tab L g) = .ok (tab L (upd g i (r i (g i))))) :
    forUp n (tab L f) body = .ok (tab L (fun i => if i < n then r i (f i) else f i)) := by
  obtain ⟨d, h1, h2⟩ := forUp_returns (n := n) (s := tab L f) (body := body)
    (fun k d => d = tab L (fun i => if i < k then r i (f i) else f i)) (by simp)
    (by
      rintro i d hi rfl
      refine ⟨_, h i _ hi, ?_⟩
      apply tab_congr
      intro k hk
      unfold upd
      by_cases hki : k = i
      · subst hki; simp
      · by_cases hlt : k < i
        · simp [hki, hlt, Nat.lt_succ_of_lt hlt]
        · have : ¬ k < i + 1 := by omega
          simp [hki, hlt, this])
  rw [h1, h2]

/-- Accumulation `dst[i] += v j` over `j`. -/
theorem accLoop [Add α] {n L i : Nat} {f v : Nat → α} {body : Nat → List α → Exec (List α)}
    (h : ∀ j g, j < n → body j (tab L g) = .ok (tab L (upd g i (g i + v j)))) :
    forUp n (tab L f) body = .ok (tab L (upd f i (ordSum (f i) n v))) := by
  obtain ⟨d, h1, h2⟩ := forUp_returns (n := n) (s := tab L f) (body := body)
    (fun k d => d = tab L (upd f i (ordSum (f i) k v)))
    (by
      apply tab_congr
      intro k _
      by_cases hk : k = i
      · subst hk; simp [ordSum]
      · rw [upd_ne _ _ hk])
    (by
      rintro j d hj rfl
      refine ⟨_, h j _ hj, ?_⟩
      rw [upd_upd, upd_self]
      rfl)
  rw [h1, h2]

end Verif

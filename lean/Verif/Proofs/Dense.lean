import Verif.Model.Dense
import Verif.Proofs.Tab
import Verif.Proofs.Loops

namespace Verif.Dense
open Verif.Spec

variable {α : Type _}

theorem dense_row [Zero α] [Add α] [Mul α] {L n i : Nat} {w x : List α} {f : Nat → α}
    (hi : i < L) (hw : i * n + n ≤ w.length) (hx : n ≤ x.length) :
    (forUp n (tab L f) fun j dst => do
      let w ← rd w (i * n + j)
      let x ← rd x j
      let d ← rd dst i
      wr dst i (d + w * x))
    = .ok (tab L (upd f i (ordSum (f i) n fun j => mat w n i j * vec x j))) := by
  apply accLoop
  intro j g hj
  rw [rd_vec (by omega), Exec.bind_ok, rd_vec (by omega), Exec.bind_ok, rd_tab _ hi, Exec.bind_ok,
    wr_tab _ _ hi]
  rfl

theorem dense_eq [Zero α] [Add α] [Mul α] {dst src w b : List α} {n m : Nat}
    (hd : m ≤ dst.length) (hs : n ≤ src.length) (hw : m * n ≤ w.length) (hb : m ≤ b.length) :
    dense dst src w b n m = .ok (tab dst.length fun i =>
      if i < m then ordSum (vec b i) n (fun j => mat w n i j * vec src j) else vec dst i) := by
  unfold dense
  conv => lhs; rw [eq_tab dst]
  apply forUp_tab hd
  intro i g hi
  have hle : i * n + n ≤ m * n := by
    have : (i + 1) * n ≤ m * n := Nat.mul_le_mul_right n hi
    rwa [Nat.succ_mul] at this
  rw [rd_vec (by omega), Exec.bind_ok, wr_tab _ _ (by omega), Exec.bind_ok,
    dense_row (by omega) (by omega) hs, upd_upd, upd_self]

theorem matarrMul_eq [Zero α] [Add α] [Mul α] {dst src w : List α} {n m : Nat}
    (hd : m ≤ dst.length) (hs : n ≤ src.length) (hw : m * n ≤ w.length) :
    matarrMul dst w src m n = .ok (tab dst.length fun i =>
      if i < m then ordSum 0 n (fun j => mat w n i j * vec src j) else vec dst i) := by
  unfold matarrMul
  conv => lhs; rw [eq_tab dst]
  apply forUp_tab hd
  intro i g hi
  have hle : i * n + n ≤ m * n := by
    have : (i + 1) * n ≤ m * n := Nat.mul_le_mul_right n hi
    rwa [Nat.succ_mul] at this
  rw [wr_tab _ _ (by omega), Exec.bind_ok,
    dense_row (by omega) (by omega) hs, upd_upd, upd_self]

theorem fill_eq [Zero α] {dst : List α} {n : Nat} {v : α} (h : n ≤ dst.length) :
    fill dst n v = .ok (tab dst.length fun i => if i < n then v else vec dst i) := by
  unfold fill
  conv => lhs; rw [eq_tab dst]
  exact forUp_tab h (fun i g hi => wr_tab _ _ (by omega))

theorem arrSum_eq [Zero α] [Add α] {dst a b : List α} {n : Nat} (h : n ≤ dst.length)
    (ha : n ≤ a.length) (hb : n ≤ b.length) :
    arrSum dst a b n = .ok (tab dst.length fun i => if i < n then vec a i + vec b i else vec dst i) := by
  unfold arrSum
  conv => lhs; rw [eq_tab dst]
  apply forUp_tab h
  intro i g hi
  rw [rd_vec (by omega), Exec.bind_ok, rd_vec (by omega), Exec.bind_ok, wr_tab _ _ (by omega)]

theorem arrMul_eq [Zero α] [Mul α] {dst a b : List α} {n : Nat} (h : n ≤ dst.length)
    (ha : n ≤ a.length) (hb : n ≤ b.length) :
    arrMul dst a b n = .ok (tab dst.length fun i => if i < n then vec a i * vec b i else vec dst i) := by
  unfold arrMul
  conv => lhs; rw [eq_tab dst]
  apply forUp_tab h
  intro i g hi
  rw [rd_vec (by omega), Exec.bind_ok, rd_vec (by omega), Exec.bind_ok, wr_tab _ _ (by omega)]

theorem dense1_eq [Zero α] [Add α] [Mul α] {s : Grads α} {g x w : List α} {n m : Nat}
    (hig : s.input.length = n) (hwg : s.weight.length = m * n) (hbg : s.bias.length = m)
    (hg : m ≤ g.length) (hx : n ≤ x.length) (hw : m * n ≤ w.length) :
    dense1 s g x w n m = .ok
      { input := tab n fun j => ordSum 0 m fun i => vec g i * mat w n i j
        weight := tab (m * n) fun q => vec s.weight q + vec g (q / n) * vec x (q % n)
        bias := tab m fun i => vec s.bias i + vec g i } := by
  unfold dense1
  rw [fill_eq (by omega), Exec.bind_ok]
  have key := forUp_returns (n := m)
    (s := ({ s with input := tab s.input.length fun i => if i < n then 0 else vec s.input i } : Grads α))
    (body := fun i (s : Grads α) => do
      let b ← rd s.bias i
      let g' ← rd g i
      let bg ← wr s.bias i (b + g')
      forUp n { s with bias := bg } fun j s => do
        let wg0 ← rd s.weight (i * n + j)
        let g' ← rd g i
        let x' ← rd x j
        let wg ← wr s.weight (i * n + j) (wg0 + g' * x')
        let ig0 ← rd s.input j
        let w' ← rd w (i * n + j)
        let ig ← wr s.input j (ig0 + g' * w')
        pure { s with weight := wg, input := ig })
    (fun i r => r = 
      { input := tab n fun j => ordSum 0 i fun i => vec g i * mat w n i j
        weight := tab (m * n) fun q =>
          if q < i * n then vec s.weight q + vec g (q / n) * vec x (q % n) else vec s.weight q
        bias := tab m fun k => if k < i then vec s.bias k + vec g k else vec s.bias k })
    ?_ ?_
  · obtain ⟨r, h1, h2⟩ := key
    rw [h1, h2]
    congr 1
    congr 1
    · exact tab_congr fun q hq => by rw [if_pos hq]
    · exact tab_congr fun q hq => by rw [if_pos hq]
  · obtain ⟨si, sw, sb⟩ := s
    simp only at *
    congr 1
    · rw [hig]; exact tab_congr fun q hq => by rw [if_pos hq]; rfl
    · conv => lhs; rw [eq_tab sw, hwg]
      exact tab_congr fun q hq => by simp
    · conv => lhs; rw [eq_tab sb, hbg]
      exact tab_congr fun q hq => by simp
  · rintro i r hi rfl
    simp only
    have hle : i * n + n ≤ m * n := by
      have : (i + 1) * n ≤ m * n := Nat.mul_le_mul_right n hi
      rwa [Nat.succ_mul] at this
    rw [rd_tab _ hi, Exec.bind_ok, rd_vec (by omega), Exec.bind_ok, wr_tab _ _ hi, Exec.bind_ok]
    refine (forUp_returns (fun j r => r = 
      { input := tab n fun c => ordSum 0 (if c < j then i + 1 else i) fun i => vec g i * mat w n i c
        weight := tab (m * n) fun q =>
          if q < i * n + j then vec s.weight q + vec g (q / n) * vec x (q % n) else vec s.weight q
        bias := tab m fun k => if k < i + 1 then vec s.bias k + vec g k else vec s.bias k })
      ?_ ?_).mono ?_
    · congr 1
      apply tab_congr
      intro k hk
      unfold upd
      by_cases hki : k = i
      · subst hki; simp
      · by_cases hlt : k < i
        · simp [hki, hlt, Nat.lt_succ_of_lt hlt]
        · have : ¬ k < i + 1 := by omega
          simp [hki, hlt, this]
    · rintro j r hj rfl
      simp only
      rw [rd_tab _ (by omega), Exec.bind_ok, Exec.bind_ok,
        rd_vec (l := x) (by omega),
        Exec.bind_ok, wr_tab _ _ (by omega), Exec.bind_ok, rd_tab _ hj, Exec.bind_ok,
        rd_vec (l := w) (by omega), Exec.bind_ok, wr_tab _ _ hj, Exec.bind_ok]
      refine .ok ?_
      congr 1
      · apply tab_congr
        intro c hc
        unfold upd
        by_cases hcj : c = j
        · subst hcj; simp [ordSum, mat_eq_vec]
        · by_cases hlt : c < j
          · simp [hcj, hlt, Nat.lt_succ_of_lt hlt]
          · have : ¬ c < j + 1 := by omega
            simp [hcj, hlt, this]
      · apply tab_congr
        intro q hq
        unfold upd
        by_cases hqj : q = i * n + j
        · subst hqj
          have e1 : (i * n + j) / n = i := by
            rw [Nat.mul_comm, Nat.mul_add_div (by omega), Nat.div_eq_of_lt hj, Nat.add_zero]
          have e2 : (i * n + j) % n = j := by
            rw [Nat.mul_comm, Nat.mul_add_mod, Nat.mod_eq_of_lt hj]
          simp [e1, e2]
        · by_cases hlt : q < i * n + j
          · have : q < i * n + (j + 1) := by omega
            simp [hqj, hlt, this]
          · have : ¬ q < i * n + (j + 1) := by omega
            simp [hqj, hlt, this]
    · rintro r rfl
      congr 1
      · exact tab_congr fun c hc => by rw [if_pos hc]
      · rw [Nat.succ_mul]

theorem forUp_ub {σ : Type _} {n k : Nat} {s : σ} {body : Nat → σ → Exec σ} (hk : k < n)
    {P : σ → Prop} (hpre : (forUp k s body).Returns P) (h : ∀ s, P s → body k s = .ub) :
    forUp n s body = .ub := by
  obtain ⟨a, h1, h2⟩ := hpre
  unfold forUp at *
  rw [show n = k + ((n - k - 1) + 1) by omega, forFrom_append k, h1, Exec.bind_ok]
  simp only [forFrom, Nat.zero_add]
  rw [h a h2]
  rfl

theorem dense_ub [Zero α] [Add α] [Mul α] {dst src w b : List α} {n m : Nat}
    (hd : m ≤ dst.length) (hs : n ≤ src.length) (hb : m ≤ b.length) (hw : w.length < m * n) :
    dense dst src w b n m = .ub := by
  have hn : 0 < n := Nat.pos_of_ne_zero (by rintro rfl; simp at hw)
  have hi : w.length / n < m := Nat.div_lt_of_lt_mul (by rwa [Nat.mul_comm])
  have hj : w.length % n < n := Nat.mod_lt _ hn
  have hq : w.length / n * n + w.length % n = w.length := Nat.div_add_mod' _ _
  unfold dense
  refine forUp_ub (P := fun d => d.length = dst.length) hi ?_ ?_
  · have := dense_eq (dst := dst) (src := src) (w := w) (b := b) (n := n) (m := w.length / n)
      (by omega) hs (by omega) (by omega)
    unfold dense at this
    exact ⟨_, this, by simp⟩
  · intro d hdl
    rw [rd_vec (by omega), Exec.bind_ok, wr_ok (by omega), Exec.bind_ok]
    conv => lhs; rw [eq_tab (d.set _ _)]
    refine forUp_ub (P := fun _ => True) hj ?_ ?_
    · exact ⟨_, accLoop (i := w.length / n)
        (v := fun j => mat w n (w.length / n) j * vec src j) (by
        intro j g hjj
        rw [rd_vec (by omega), Exec.bind_ok, rd_vec (by omega), Exec.bind_ok,
          rd_tab _ (by simp; omega), Exec.bind_ok, wr_tab _ _ (by simp; omega)]
        rfl), trivial⟩
    · intro s _
      have : rd w (w.length / n * n + w.length % n) = .ub := by
        rw [hq]; simp [rd]
      rw [this]; rfl

end Verif.Dense

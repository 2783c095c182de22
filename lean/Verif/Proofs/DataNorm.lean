import Verif.Proofs.DataShuffle
import Mathlib.Tactic.Linarith

/-! In-place updates of columns, minima and maxima of columns. -/

namespace Verif.Data

open Verif.Spec

variable {α : Type}

/-- A loop over some columns of one row that replaces each cell by a function of it. -/
theorem forCols [Zero α] {L fs m i : Nat} {col : Nat → Nat} {g : Nat → α → α}
    {body : Nat → List α → Exec (List α)} (hL : (i + 1) * fs ≤ L) (hcol : ∀ k < m, col k < fs)
    (hinj : ∀ k < m, ∀ k' < m, col k = col k' → k = k')
    (hb : ∀ k < m, ∀ f : Nat → α, body k (tab L f)
      = .ok (tab L (upd f (i * fs + col k) (g k (f (i * fs + col k))))))
    (f : Nat → α) :
    ∃ f', forUp m (tab L f) body = .ok (tab L f') ∧
      (∀ k < m, f' (i * fs + col k) = g k (f (i * fs + col k))) ∧
      (∀ q, (∀ k < m, q ≠ i * fs + col k) → f' q = f q) := by
  have key := forUp_returns (n := m) (s := tab L f) (body := body)
    (fun k r => ∃ f', r = tab L f' ∧ (∀ k' < k, f' (i * fs + col k') = g k' (f (i * fs + col k'))) ∧
      (∀ q, (∀ k' < k, q ≠ i * fs + col k') → f' q = f q))
    ⟨f, rfl, fun k h => absurd h (Nat.not_lt_zero _), fun _ _ => rfl⟩ ?_
  · obtain ⟨r, h1, f', rfl, h2, h3⟩ := key
    exact ⟨f', h1, h2, h3⟩
  · rintro k r hk ⟨f', rfl, h2, h3⟩
    refine ⟨_, hb k hk f', _, rfl, ?_, ?_⟩
    · intro k' hk'
      by_cases e : k' = k
      · subst e
        rw [upd_self, h3]
        intro k'' hk'' e
        have := hinj _ (by omega) _ (by omega) (Nat.add_left_cancel e)
        omega
      · rw [upd_ne, h2 k' (by omega)]
        intro e'
        exact e (hinj _ (by omega) _ hk (Nat.add_left_cancel e'))
    · intro q hq
      rw [upd_ne _ _ (hq k (by omega)), h3 q fun k' hk' => hq k' (by omega)]

/-- The same over all rows. -/
theorem forCells [Zero α] {L n fs m : Nat} {col : Nat → Nat} {g : Nat → Nat → α → α}
    {body : Nat → Nat → List α → Exec (List α)} (hL : n * fs ≤ L) (hcol : ∀ k < m, col k < fs)
    (hinj : ∀ k < m, ∀ k' < m, col k = col k' → k = k')
    (hb : ∀ i < n, ∀ k < m, ∀ f : Nat → α, body i k (tab L f)
      = .ok (tab L (upd f (i * fs + col k) (g i k (f (i * fs + col k))))))
    (f : Nat → α) :
    ∃ f', forUp n (tab L f) (fun i s => forUp m s (body i)) = .ok (tab L f') ∧
      (∀ i < n, ∀ k < m, f' (i * fs + col k) = g i k (f (i * fs + col k))) ∧
      (∀ i < n, ∀ j < fs, (∀ k < m, j ≠ col k) → f' (i * fs + j) = f (i * fs + j)) := by
  have key := forUp_returns (n := n) (s := tab L f) (body := fun i s => forUp m s (body i))
    (fun i r => ∃ f', r = tab L f' ∧
      (∀ i' < i, ∀ k < m, f' (i' * fs + col k) = g i' k (f (i' * fs + col k))) ∧
      (∀ i', ∀ j < fs, (i' < i → ∀ k < m, j ≠ col k) → f' (i' * fs + j) = f (i' * fs + j)))
    ⟨f, rfl, fun k h => absurd h (Nat.not_lt_zero _), fun _ _ _ _ => rfl⟩ ?_
  · obtain ⟨r, h1, f', rfl, h2, h3⟩ := key
    exact ⟨f', h1, h2, fun i _ j hj h => h3 i j hj fun _ => h⟩
  · rintro i r hi ⟨f', rfl, h2, h3⟩
    have hLi : (i + 1) * fs ≤ L := Nat.le_trans (Nat.mul_le_mul_right _ hi) hL
    obtain ⟨f'', e1, e2, e3⟩ := forCols (g := g i) hLi hcol hinj (hb i hi) f'
    refine ⟨_, e1, f'', rfl, ?_, ?_⟩
    · intro i' hi' k hk
      by_cases e : i' = i
      · subst e
        rw [e2 k hk, h3 i' (col k) (hcol k hk) fun h => absurd h (Nat.lt_irrefl _)]
      · rw [e3 _ fun k' hk' => cells_ne (hcol k hk) (hcol k' hk') (.inl e)]
        exact h2 i' (by omega) k hk
    · intro i' j hj hne
      rw [e3, h3 i' j hj fun h => hne (by omega)]
      intro k hk
      by_cases e : i' = i
      · exact cells_ne hj (hcol k hk) (.inr (hne (by omega) k hk))
      · exact cells_ne hj (hcol k hk) (.inl e)

/-- `lo` is the least of `x 0 … x (n-1)`, `hi` the greatest. -/
def Extremes (n : Nat) (x : Nat → ℝ) (lo hi : ℝ) : Prop :=
  (∀ i < n, lo ≤ x i ∧ x i ≤ hi) ∧ (∃ i < n, x i = lo) ∧ ∃ i < n, x i = hi

/-- First loop of `normalize`. -/
theorem norm_first {data : List ℝ} {fs : Nat} (h : fs ≤ data.length) :
    forUp fs ((List.replicate fs (0 : ℝ)), (List.replicate fs (0 : ℝ))) (fun col mm => do
      let v ← rd data col
      let mn ← wr mm.1 col v
      let mx ← wr mm.2 col v
      .ok (mn, mx)) = .ok (tab fs (vec data), tab fs (vec data)) := by
  have key := forUp_returns (n := fs) (s := ((List.replicate fs (0 : ℝ)), (List.replicate fs (0 : ℝ))))
    (body := fun col mm => do
      let v ← rd data col
      let mn ← wr mm.1 col v
      let mx ← wr mm.2 col v
      .ok (mn, mx))
    (fun k s => s = (tab fs (fun j => if j < k then vec data j else 0),
      tab fs (fun j => if j < k then vec data j else 0))) ?_ ?_
  · obtain ⟨s, h1, h2⟩ := key
    rw [h1, h2]
    congr 1
    have : tab fs (fun j => if j < fs then vec data j else 0) = tab fs (vec data) :=
      tab_congr fun j hj => by rw [if_pos hj]
    rw [this]
  · have : List.replicate fs (0 : ℝ) = tab fs (fun j => if j < 0 then vec data j else 0) := by
      apply List.ext_getElem <;> simp [tab]
    rw [← this]
  · rintro k s hk rfl
    have hstep : tab fs (upd (fun j => if j < k then vec data j else 0) k (vec data k))
        = tab fs (fun j => if j < k + 1 then vec data j else 0) := by
      apply tab_congr
      intro j _
      by_cases e : j = k
      · subst e; rw [upd_self, if_pos (by omega)]
      · rw [upd_ne _ _ e]
        by_cases hjk : j < k
        · rw [if_pos hjk, if_pos (by omega)]
        · rw [if_neg hjk, if_neg (by omega)]
    refine ⟨_, ?_, rfl⟩
    rw [rd_vec (by omega), Exec.bind_ok]
    dsimp only
    rw [wr_tab _ _ hk, Exec.bind_ok, Exec.bind_ok, hstep]

/-- Body of the second loop of `normalize`. -/
theorem norm_row {data : List ℝ} {fs row : Nat} (h : (row + 1) * fs ≤ data.length) (lo hi : Nat → ℝ) :
    ∃ lo' hi', forUp fs (tab fs lo, tab fs hi) (fun col mm => do
      let v ← rd data (row * fs + col)
      let hi ← rd mm.2 col
      let mx ← if v > hi then wr mm.2 col v else .ok mm.2
      let lo ← rd mm.1 col
      let mn ← if v < lo then wr mm.1 col v else .ok mm.1
      .ok (mn, mx)) = .ok (tab fs lo', tab fs hi') ∧
      ∀ j < fs, lo' j = min (lo j) (vec data (row * fs + j)) ∧
        hi' j = max (hi j) (vec data (row * fs + j)) := by
  have key := forUp_returns (n := fs) (s := (tab fs lo, tab fs hi)) (body := fun col mm => do
      let v ← rd data (row * fs + col)
      let hi ← rd mm.2 col
      let mx ← if v > hi then wr mm.2 col v else .ok mm.2
      let lo ← rd mm.1 col
      let mn ← if v < lo then wr mm.1 col v else .ok mm.1
      .ok (mn, mx))
    (fun k s => ∃ lo' hi', s = (tab fs lo', tab fs hi') ∧
      (∀ j < k, lo' j = min (lo j) (vec data (row * fs + j)) ∧
        hi' j = max (hi j) (vec data (row * fs + j))) ∧
      ∀ j, k ≤ j → lo' j = lo j ∧ hi' j = hi j)
    ⟨lo, hi, rfl, fun k h => absurd h (Nat.not_lt_zero _), fun _ _ => ⟨rfl, rfl⟩⟩ ?_
  · obtain ⟨s, h1, lo', hi', rfl, h2, _⟩ := key
    exact ⟨lo', hi', h1, h2⟩
  · rintro k s hk ⟨lo', hi', rfl, h2, h3⟩
    rw [Nat.add_one_mul] at h
    have keep : ∀ (f : Nat → ℝ) (v : ℝ), v = f k → tab fs (upd f k v) = tab fs f := by
      intro f v hv
      apply tab_congr
      intro j _
      by_cases e : j = k
      · subst e; rw [upd_self, hv]
      · rw [upd_ne _ _ e]
    refine ⟨_, ?_, upd lo' k (min (lo' k) (vec data (row * fs + k))),
      upd hi' k (max (hi' k) (vec data (row * fs + k))), rfl, ?_, ?_⟩
    · rw [rd_vec (by omega), Exec.bind_ok]
      dsimp only
      rw [rd_tab _ hk, Exec.bind_ok]
      by_cases c1 : vec data (row * fs + k) > hi' k <;> by_cases c2 : vec data (row * fs + k) < lo' k
      · rw [if_pos c1, wr_tab _ _ hk, Exec.bind_ok, rd_tab _ hk, Exec.bind_ok, if_pos c2, wr_tab _ _ hk,
          Exec.bind_ok, max_eq_right (le_of_lt c1), min_eq_right (le_of_lt c2)]
      · rw [if_pos c1, wr_tab _ _ hk, Exec.bind_ok, rd_tab _ hk, Exec.bind_ok, if_neg c2,
          Exec.bind_ok, max_eq_right (le_of_lt c1), min_eq_left (not_lt.mp c2), keep lo' _ rfl]
      · rw [if_neg c1, Exec.bind_ok, rd_tab _ hk, Exec.bind_ok, if_pos c2, wr_tab _ _ hk,
          Exec.bind_ok, max_eq_left (not_lt.mp c1), min_eq_right (le_of_lt c2), keep hi' _ rfl]
      · rw [if_neg c1, Exec.bind_ok, rd_tab _ hk, Exec.bind_ok, if_neg c2,
          Exec.bind_ok, max_eq_left (not_lt.mp c1), min_eq_left (not_lt.mp c2), keep hi' _ rfl,
          keep lo' _ rfl]
    · intro j hj
      by_cases e : j = k
      · subst e
        rw [upd_self, upd_self, (h3 j (by omega)).1, (h3 j (by omega)).2]
        exact ⟨rfl, rfl⟩
      · rw [upd_ne _ _ e, upd_ne _ _ e]
        exact h2 j (by omega)
    · intro j hj
      rw [upd_ne _ _ (by omega), upd_ne _ _ (by omega)]
      exact h3 j (by omega)

/-- The first two loops of `normalize` find the least and greatest value of each column. -/
theorem norm_extremes {data : List ℝ} {fs n : Nat} (h : data.length = n * fs) (hn : 0 < n) :
    ∃ lo hi, forFrom 1 (n - 1) (tab fs (vec data), tab fs (vec data)) (fun row mm =>
      forUp fs mm fun col mm => do
        let v ← rd data (row * fs + col)
        let hi ← rd mm.2 col
        let mx ← if v > hi then wr mm.2 col v else .ok mm.2
        let lo ← rd mm.1 col
        let mn ← if v < lo then wr mm.1 col v else .ok mm.1
        .ok (mn, mx)) = .ok (tab fs lo, tab fs hi) ∧
      ∀ j < fs, Extremes n (fun i => vec data (i * fs + j)) (lo j) (hi j) := by
  have key := forFrom_returns (body := fun row mm =>
      forUp fs mm fun col mm => do
        let v ← rd data (row * fs + col)
        let hi ← rd mm.2 col
        let mx ← if v > hi then wr mm.2 col v else .ok mm.2
        let lo ← rd mm.1 col
        let mn ← if v < lo then wr mm.1 col v else .ok mm.1
        .ok (mn, mx))
    (fun k s => ∃ lo hi, s = (tab fs lo, tab fs hi) ∧
      ∀ j < fs, Extremes k (fun i => vec data (i * fs + j)) (lo j) (hi j))
    (n - 1) 1 (tab fs (vec data), tab fs (vec data)) ?_ ?_
  · rw [show 1 + (n - 1) = n by omega] at key
    obtain ⟨s, h1, lo, hi, rfl, h2⟩ := key
    exact ⟨lo, hi, h1, h2⟩
  · refine ⟨_, _, rfl, fun j _ => ⟨fun i hi => ?_, ⟨0, by omega, by simp⟩, ⟨0, by omega, by simp⟩⟩⟩
    have : i = 0 := by omega
    subst this
    simp
  · rintro k s hk1 hk ⟨lo, hi, rfl, h2⟩
    have hle : (k + 1) * fs ≤ data.length := by
      rw [h]; exact Nat.mul_le_mul_right _ (by omega)
    obtain ⟨lo', hi', e1, e2⟩ := norm_row hle lo hi
    refine ⟨_, e1, lo', hi', rfl, fun j hj => ?_⟩
    obtain ⟨m1, m2⟩ := e2 j hj
    obtain ⟨a, ⟨i1, b1, b2⟩, ⟨i2, c1, c2⟩⟩ := h2 j hj
    rw [m1, m2]
    refine ⟨fun i hi' => ?_, ?_, ?_⟩
    · by_cases e : i = k
      · subst e; exact ⟨min_le_right _ _, le_max_right _ _⟩
      · obtain ⟨x, y⟩ := a i (by omega)
        exact ⟨le_trans (min_le_left _ _) x, le_trans y (le_max_left _ _)⟩
    · rcases le_total (lo j) (vec data (k * fs + j)) with hh | hh
      · exact ⟨i1, by omega, by rw [min_eq_left hh]; exact b2⟩
      · exact ⟨k, by omega, by rw [min_eq_right hh]⟩
    · rcases le_total (hi j) (vec data (k * fs + j)) with hh | hh
      · exact ⟨k, by omega, by rw [max_eq_right hh]⟩
      · exact ⟨i2, by omega, by rw [max_eq_left hh]; exact c2⟩

/-- `min_max_normalization()` over the reals. -/
theorem normalize_ok {d : Dataset ℝ} (h : Consistent d) (hn : 0 < d.size) :
    ∃ (data : List ℝ) (lo hi : Nat → ℝ), d.normalize = .ok { d with data := data } ∧ data.length = d.data.length ∧
      (∀ j < d.featureSize, Extremes d.size (fun i => vec d.data (i * d.featureSize + j)) (lo j) (hi j)) ∧
      ∀ i < d.size, ∀ j < d.featureSize, vec data (i * d.featureSize + j)
        = (vec d.data (i * d.featureSize + j) - lo j) / (hi j - lo j) := by
  have hfs : d.featureSize ≤ d.data.length := by
    rw [h.data]; exact Nat.le_mul_of_pos_left _ hn
  obtain ⟨lo, hi, e1, e2⟩ := norm_extremes h.data hn
  have hL : d.data.length = d.featureAmount * d.featureSize := h.data
  obtain ⟨f', g1, g2, _⟩ := forCells (α := ℝ) (L := d.data.length) (n := d.featureAmount)
    (fs := d.featureSize) (m := d.featureSize) (col := id)
    (g := fun _ j v => (v - lo j) / (hi j - lo j))
    (body := fun row col data => do
      let v ← rd data (row * d.featureSize + col)
      let lo ← rd (tab d.featureSize lo) col
      let hi ← rd (tab d.featureSize hi) col
      wr data (row * d.featureSize + col) ((v - lo) / (hi - lo)))
    (by omega) (fun k hk => hk) (fun k _ k' _ e => e) (by
      intro i hi' k hk f
      have := cell_lt h hi' hk
      rw [rd_tab _ this, Exec.bind_ok, rd_tab _ hk, Exec.bind_ok, rd_tab _ hk, Exec.bind_ok,
        wr_tab _ _ this]
      rfl) (vec d.data)
  rw [← eq_tab d.data] at g1
  refine ⟨tab d.data.length f', lo, hi, ?_, by simp, e2, ?_⟩
  · unfold Dataset.normalize
    unfold Dataset.size at e1
    dsimp only at e1 ⊢
    rw [norm_first hfs, Exec.bind_ok, e1, Exec.bind_ok]
    dsimp only
    rw [g1]
    rfl
  · intro i hi' j hj
    rw [vec_tab _ (cell_lt h hi' hj)]
    exact g2 i hi' j hj

/-- `min_max_normalization(min, max, cols)`. -/
theorem normalizeBy_ok [Zero α] [Sub α] [Div α] [DecidableEq α] {d : Dataset α} (h : Consistent d)
    {lo hi : α} (hne : lo ≠ hi) {cols : List Nat} (hnd : cols.Nodup) (hc : ∀ c ∈ cols, c < d.featureSize) :
    ∃ data, d.normalizeBy lo hi cols = .ok { d with data := data } ∧ data.length = d.data.length ∧
      ∀ i < d.size, ∀ j < d.featureSize, vec data (i * d.featureSize + j)
        = if j ∈ cols ∨ cols = [] then (vec d.data (i * d.featureSize + j) - lo) / (hi - lo)
          else vec d.data (i * d.featureSize + j) := by
  obtain ⟨cs, hcs⟩ : ∃ cs, cs = (if cols = [] then List.range d.featureSize else cols) := ⟨_, rfl⟩
  have hnd' : cs.Nodup := by rw [hcs]; split; exact List.nodup_range; exact hnd
  have hc' : ∀ c ∈ cs, c < d.featureSize := by
    rw [hcs]; split
    · intro c hc; simpa using hc
    · exact hc
  have hmem : ∀ j < d.featureSize, (j ∈ cs ↔ j ∈ cols ∨ cols = []) := by
    intro j hj
    rw [hcs]
    split
    · rename_i e; simp [e, hj]
    · rename_i e; simp [e]
  have hL : d.data.length = d.featureAmount * d.featureSize := h.data
  have hat : ∀ k < cs.length, cs[k]? = some (cs.getD k 0) := by
    intro k hk
    simp [List.getD, List.getElem?_eq_getElem hk]
  obtain ⟨f', g1, g2, g3⟩ := forCells (α := α) (L := d.data.length) (n := d.featureAmount)
    (fs := d.featureSize) (m := cs.length) (col := fun k => cs.getD k 0)
    (g := fun _ _ v => (v - lo) / (hi - lo))
    (body := fun row k data => do
        let col ← rd cs k
        let v ← rd data (row * d.featureSize + col)
        wr data (row * d.featureSize + col) ((v - lo) / (hi - lo)))
    (by omega) (fun k hk => hc' _ (List.mem_of_getElem? (hat k hk)))
    (by
      intro k hk k' hk' e
      have h1 := hat k hk
      have h2 := hat k' hk'
      rw [e] at h1
      rw [List.getElem?_eq_getElem hk] at h1
      rw [List.getElem?_eq_getElem hk'] at h2
      exact (List.Nodup.getElem_inj_iff hnd').mp ((Option.some.inj h1).trans (Option.some.inj h2).symm))
    (by
      intro i hi' k hk f
      have := cell_lt h hi' (hc' _ (List.mem_of_getElem? (hat k hk)))
      rw [rd_of_some (hat k hk), Exec.bind_ok, rd_tab _ this, Exec.bind_ok, wr_tab _ _ this])
    (vec d.data)
  rw [← eq_tab d.data] at g1
  refine ⟨tab d.data.length f', ?_, by simp, ?_⟩
  · unfold Dataset.normalizeBy
    rw [if_neg hne, ← hcs]
    dsimp only
    rw [g1]
    rfl
  · intro i hi' j hj
    rw [vec_tab _ (cell_lt h hi' hj)]
    by_cases hj' : j ∈ cs
    · rw [if_pos ((hmem j hj).mp hj')]
      obtain ⟨k, hk, e⟩ := List.mem_iff_getElem.mp hj'
      have := g2 i hi' k hk
      have e' : cs.getD k 0 = j := by
        have := hat k hk
        rw [List.getElem?_eq_getElem hk, e] at this
        exact (Option.some.inj this).symm
      rw [e'] at this
      exact this
    · rw [if_neg fun hh => hj' ((hmem j hj).mpr hh)]
      exact g3 i hi' j hj fun k hk e => hj' (e ▸ List.mem_of_getElem? (hat k hk))

end Verif.Data

import Verif.Model.MemorySlide
import Verif.Proofs.Memory
import Verif.Proofs.Pool

/-! Proofs about the sliding-window functions on one memory. -/

namespace Verif.Mem

open Verif Verif.Spec Verif.Slide Finset

noncomputable section

theorem forFrom_congr {σ : Type _} {f g : Nat → σ → Exec σ} : ∀ (k i0 : Nat) (s : σ),
    (∀ i s, i0 ≤ i → i < i0 + k → f i s = g i s) → forFrom i0 k s f = forFrom i0 k s g := by
  intro k
  induction k with
  | zero => intro i0 s _; rfl
  | succ k ih =>
    intro i0 s h
    simp only [forFrom]
    rw [h i0 s (by omega) (by omega)]
    cases g i0 s with
    | ok a => exact ih (i0 + 1) a fun i s h1 h2 => h i s (by omega) (by omega)
    | throw e => rfl
    | ub => rfl

theorem forUp_congr {σ : Type _} {f g : Nat → σ → Exec σ} {n : Nat} {s : σ}
    (h : ∀ i s, i < n → f i s = g i s) : forUp n s f = forUp n s g :=
  forFrom_congr n 0 s fun i s _ h2 => h i s (by omega)

/-- A kernel slide whose operation stores the `n` numbers of its output position, one after the other. -/
theorem slide_stored {g : Geom} (hg : g.Fits) {n dst : Nat} {m : List ℝ}
    {op : Nat → Nat → Nat → Nat → Int → Int → List ℝ → Exec (List ℝ)}
    {body : Nat → Nat → Nat → List ℝ → Exec (List ℝ)} (V : Nat → Nat → Nat → ℝ)
    (hdst : dst + g.rows * g.cols * n ≤ m.length)
    (hop : ∀ r c m', op g.rows g.cols r c ((r * g.sh : Nat) - (g.ph : Int))
      (((c * g.sw : Nat) - (g.pw : Int)) * g.src.c) m' = forUp n m' (body r c))
    (hb : ∀ r c f m' W, r < g.rows → c < g.cols → f < n → Stored m m' dst ((r * g.cols + c) * n + f) W →
      body r c f m' = .ok (m'.set (dst + ((r * g.cols + c) * n + f)) (V r c f))) :
    ∃ m', kernelSlide op g.src (ks g) (st g) (pd g) m = .ok m' ∧
      Stored m m' dst (g.rows * g.cols * n) fun q => V (q / n / g.cols) (q / n % g.cols) (q % n) := by
  rw [kernelSlide_eq hg]
  have hW : ∀ r c f, c < g.cols → f < n → V (((r * g.cols + c) * n + f) / n / g.cols)
      (((r * g.cols + c) * n + f) / n % g.cols) (((r * g.cols + c) * n + f) % n) = V r c f := by
    intro r c f hc hf
    obtain ⟨e1, e2, e3⟩ := out_dm (r := r) hc hf
    simp only [e1, e2, e3]
  obtain ⟨m1, e1, e2⟩ := forUp_returns (n := g.rows) (s := m)
    (body := fun r s => forUp g.cols s fun c s => op g.rows g.cols r c ((r * g.sh : Nat) - (g.ph : Int))
      (((c * g.sw : Nat) - (g.pw : Int)) * g.src.c) s)
    (fun r m' => Stored m m' dst (r * g.cols * n) fun q => V (q / n / g.cols) (q / n % g.cols) (q % n))
    (by rw [Nat.zero_mul, Nat.zero_mul]; exact stored_zero _ _ _) (by
      intro r m1 hr h1
      obtain ⟨m2, a1, a2⟩ := forUp_returns (n := g.cols) (s := m1)
        (body := fun c s => op g.rows g.cols r c ((r * g.sh : Nat) - (g.ph : Int))
          (((c * g.sw : Nat) - (g.pw : Int)) * g.src.c) s)
        (fun c m' => Stored m m' dst ((r * g.cols + c) * n)
          fun q => V (q / n / g.cols) (q / n % g.cols) (q % n)) h1 (by
            intro c m2 hc h2
            rw [hop]
            obtain ⟨m3, b1, b2⟩ := forUp_returns (n := n) (s := m2) (body := body r c)
              (fun f m' => Stored m m' dst ((r * g.cols + c) * n + f)
                fun q => V (q / n / g.cols) (q / n % g.cols) (q % n)) h2 (by
                  intro f m3 hf h3
                  refine ⟨_, hb r c f m3 _ hr hc hf h3, ?_⟩
                  have hlt := out_lt hr hc hf
                  have := stored_snoc h3 (by omega)
                  rw [hW r c f hc hf] at this
                  exact this)
            refine ⟨m3, b1, ?_⟩
            rw [show (r * g.cols + (c + 1)) * n = (r * g.cols + c) * n + n by ring]
            exact b2)
      refine ⟨m2, a1, ?_⟩
      rw [show (r + 1) * g.cols = r * g.cols + g.cols by ring]
      exact a2)
  exact ⟨m1, e1, e2⟩

/-- A read of a number that was not stored to. -/
theorem rdI_stored {m m' : List ℝ} {dst n src i : Nat} {W : Nat → ℝ} {z : Int} (h : Stored m m' dst n W)
    (hz : z = (i : Int)) (hl : src + i < m.length) (ho : src + i < dst ∨ dst + n ≤ src + i) :
    rdI m' ((src : Int) + z) = rdI (m.drop src) z := by
  subst hz
  unfold rdI
  rw [if_neg (by omega), if_neg (by omega), show ((src : Int) + (i : Int)).toNat = src + i by omega,
    stored_rd h hl ho, Int.toNat_natCast]
  rw [rd_ok (by simp; omega)]
  simp [cell, List.getD_eq_getElem?_getD, hl]

theorem rd_drop_stored {m m' : List ℝ} {dst n src i : Nat} {W : Nat → ℝ} (h : Stored m m' dst n W)
    (hl : src + i < m.length) (ho : src + i < dst ∨ dst + n ≤ src + i) :
    rd m' (src + i) = rd (m.drop src) i := by
  rw [stored_rd h hl ho, rd_ok (by simp; omega)]
  simp [cell, List.getD_eq_getElem?_getD, hl]

/-- Windows without padding lie behind the outputs written before. -/
theorem cell_ge {g : Geom} (hg : g.Fits) (hp : g.Pool) {r c a b ch : Nat} :
    (r * g.cols + c) * g.src.c + ch ≤ windowCell g r c a b ch := by
  have hcols : g.cols ≤ g.src.w := by
    have h := placements_eq (i := g.src.w) (k := g.kw) (s := g.sw) (p := g.pw) hg.sw_pos hg.kw_le
    unfold Geom.cols
    rw [h, hp.2]
    have h1 := Nat.div_le_self (g.src.w + 2 * 0 - g.kw) g.sw
    have := hg.kw_pos
    have := hg.kw_le
    rw [hp.2] at this
    omega
  unfold windowCell cellIdx
  refine Nat.add_le_add_right (Nat.mul_le_mul_right _ ?_) _
  have h1 : r * g.cols ≤ (r * g.sh + a) * g.src.w :=
    Nat.mul_le_mul (Nat.le_add_right_of_le (Nat.le_mul_of_pos_right _ hg.sh_pos)) hcols
  have h2 : c ≤ c * g.sw + b := Nat.le_add_right_of_le (Nat.le_mul_of_pos_right _ hg.sw_pos)
  omega

/-- Reads of a pooling window do not hit what was stored, if the destination does not begin inside the source. -/
theorem window_read {g : Geom} (hg : g.Fits) (hp : g.Pool) {m m' : List ℝ} {dst src : Nat} {W : Nat → ℝ}
    (hs : src + g.src.h * g.src.w * g.src.c ≤ m.length) (o : InPlace dst src (g.src.h * g.src.w * g.src.c))
    {r c ch ki : Nat} (hr : r < g.rows) (hc : c < g.cols) (hch : ch < g.src.c) (hki : ki < g.kh * g.kw)
    (h : Stored m m' dst ((r * g.cols + c) * g.src.c + ch) W) {z : Int} (hz : z = (cellNo g r c ch ki : Int)) :
    rdI m' ((src : Int) + z) = rdI (m.drop src) z := by
  have hlt := cellNo_lt hg hp hr hc hki hch
  have hge : (r * g.cols + c) * g.src.c + ch ≤ cellNo g r c ch ki := cell_ge hg hp
  exact rdI_stored h hz (by omega) (by rcases o with o | o <;> omega)

theorem avgPool_stored {g : Geom} (hg : g.Fits) (hp : g.Pool) {dst src : Nat} {m : List ℝ}
    (hd : dst + g.rows * g.cols * g.src.c ≤ m.length) (hs : src + g.src.h * g.src.w * g.src.c ≤ m.length)
    (o : InPlace dst src (g.src.h * g.src.w * g.src.c)) :
    ∃ m', avgPool dst src g.src (ks g) (st g) m = .ok m' ∧
      Stored m m' dst (g.rows * g.cols * g.src.c) fun q =>
        (∑ a ∈ range g.kh, ∑ b ∈ range g.kw,
          cell m src (windowCell g (q / g.src.c / g.cols) (q / g.src.c % g.cols) a b (q % g.src.c)))
          / ((g.kh * g.kw : Nat) : ℝ) := by
  unfold avgPool
  have hpd : (⟨0, 0⟩ : Shape2) = pd g := by unfold pd; rw [hp.1, hp.2]
  rw [hpd]
  refine slide_stored hg (fun r c ch => (∑ a ∈ range g.kh, ∑ b ∈ range g.kw,
    cell m src (windowCell g r c a b ch)) / ((g.kh * g.kw : Nat) : ℝ)) hd (fun r c m' => rfl) ?_
  intro r c ch m' W hr hc hch h
  have hin := avg_sum (src := m.drop src) hg hp hr hc hch (by simp; omega)
  have e : r * (g.cols * g.src.c) + c * g.src.c + ch = (r * g.cols + c) * g.src.c + ch := by ring
  have hlt := out_lt hr hc hch
  dsimp only [ks]
  rw [forUp_congr (g := fun ki sum => do
      let v ← rdI (m.drop src) ((((r * g.sh : Nat) - (g.ph : Int)) + ((ki / g.kw : Nat) : Int))
          * ((g.src.w * g.src.c : Nat) : Int)
        + ((((c * g.sw : Nat) - (g.pw : Int)) * g.src.c) + ((ki % g.kw * g.src.c : Nat) : Int)
          + (ch : Int)))
      pure (sum + v)) (by
        intro ki s hki
        rw [window_read hg hp hs o hr hc hch hki h (pool_pos hp r c ch ki)]),
    hin, Exec.bind_ok, e, wr_ok (by rw [h.1]; omega), vec_drop]

theorem maxPool_stored {g : Geom} (hg : g.Fits) (hp : g.Pool) {dst src : Nat} {m : List ℝ}
    (hd : dst + g.rows * g.cols * g.src.c ≤ m.length) (hs : src + g.src.h * g.src.w * g.src.c ≤ m.length)
    (o : InPlace dst src (g.src.h * g.src.w * g.src.c)) :
    ∃ m', maxPool dst src g.src (ks g) (st g) m = .ok m' ∧
      Stored m m' dst (g.rows * g.cols * g.src.c) fun q =>
        runMax (fun ki => cell m src (cellNo g (q / g.src.c / g.cols) (q / g.src.c % g.cols) (q % g.src.c) ki))
          (g.kh * g.kw) := by
  unfold maxPool
  have hpd : (⟨0, 0⟩ : Shape2) = pd g := by unfold pd; rw [hp.1, hp.2]
  rw [hpd]
  have hK : 0 < g.kh * g.kw := Nat.mul_pos hg.kh_pos hg.kw_pos
  refine slide_stored hg (fun r c ch => runMax (fun ki => cell m src (cellNo g r c ch ki)) (g.kh * g.kw)) hd
    (fun r c m' => rfl) ?_
  intro r c ch m' W hr hc hch h
  have e : r * (g.cols * g.src.c) + c * g.src.c + ch = (r * g.cols + c) * g.src.c + ch := by ring
  have hlt := out_lt hr hc hch
  have hread : ∀ ki z, ki < g.kh * g.kw → z = (cellNo g r c ch ki : Int) →
      rdI m' ((src : Int) + z) = .ok (cell m src (cellNo g r c ch ki)) := by
    intro ki z hki hz
    have hl := cellNo_lt hg hp hr hc hki hch
    rw [window_read hg hp hs o hr hc hch hki h hz, rdI_nat hz (by simp; omega), vec_drop]
  dsimp only [ks]
  rw [hread 0 _ hK (pool_pos0 hp r c ch), Exec.bind_ok]
  have key := forFrom_eq (i0 := 1) (k := g.kh * g.kw - 1)
    (body := fun ki mx => do
      let v ← rdI m' ((src : Int) + ((((r * g.sh : Nat) - (g.ph : Int)) + ((ki / g.kw : Nat) : Int))
          * ((g.src.w * g.src.c : Nat) : Int)
        + ((((c * g.sw : Nat) - (g.pw : Int)) * g.src.c) + ((ki % g.kw * g.src.c : Nat) : Int)
          + (ch : Int))))
      pure (if mx < v then v else mx))
    (runMax (fun ki => cell m src (cellNo g r c ch ki)))
    (by
      intro ki h1 h2
      rw [hread ki _ (by omega) (pool_pos hp r c ch ki), Exec.bind_ok, runMax_step _ h1]
      rfl)
  rw [show 1 + (g.kh * g.kw - 1) = g.kh * g.kw by omega,
    show runMax (fun ki => cell m src (cellNo g r c ch ki)) 1 = cell m src (cellNo g r c ch 0) from rfl] at key
  rw [key, Exec.bind_ok, e, wr_ok (by rw [h.1]; omega)]

/-- The source cells a convolution at `(r, c)` reads were not stored to. -/
theorem crossCorrelation_stored {g : Geom} (hg : g.Fits) {nf dst src k : Nat} {m : List ℝ}
    (hd : dst + g.rows * g.cols * nf ≤ m.length) (hs : src + g.src.h * g.src.w * g.src.c ≤ m.length)
    (hk : k + g.kh * g.kw * g.src.c * nf ≤ m.length)
    (ok : NoOverlap dst (g.rows * g.cols * nf) k (g.kh * g.kw * g.src.c * nf))
    (o : NoOverlap dst (g.rows * g.cols * nf) src (g.src.h * g.src.w * g.src.c) ∨
      (nf = 1 ∧ g.Pool ∧ InPlace dst src (g.src.h * g.src.w * g.src.c))) :
    ∃ m', crossCorrelation dst src g.src k (ks g) nf (st g) (pd g) m = .ok m' ∧
      Stored m m' dst (g.rows * g.cols * nf) fun q =>
        corr g nf (cell m src) (cell m k) (q / nf / g.cols) (q / nf % g.cols) (q % nf) := by
  unfold crossCorrelation
  refine slide_stored hg (fun r c f => corr g nf (cell m src) (cell m k) r c f) hd (fun r c m' => rfl) ?_
  intro r c f m' W hr hc hf h
  have hin := conv_sum (g := g) (r := r) (c := c) (src := m.drop src) (k := m.drop k) (by simp; omega)
    (by simp; omega) hf
  have e : r * g.cols * nf + c * nf + f = (r * g.cols + c) * nf + f := by ring
  have hlt := out_lt hr hc hf
  dsimp only [ks]
  rw [forUp_congr (g := fun ki sum =>
      let rowSrc : Int := ((r * g.sh : Nat) - (g.ph : Int)) + ((ki / (g.kw * g.src.c) : Nat) : Int)
      let colSrc : Int := (((c * g.sw : Nat) - (g.pw : Int)) * g.src.c)
        + ((ki % (g.kw * g.src.c) : Nat) : Int)
      if colSrc < 0 ∨ rowSrc < 0 ∨ colSrc ≥ ((g.src.w * g.src.c : Nat) : Int)
          ∨ rowSrc ≥ (g.src.h : Int) then
        pure sum
      else do
        let x ← rdI (m.drop src) (rowSrc * ((g.src.w * g.src.c : Nat) : Int) + colSrc)
        let w ← rd (m.drop k) (ki * nf + f)
        pure (sum + x * w)) ?_, hin, Exec.bind_ok, e, wr_ok (by rw [h.1]; omega), vec_drop, vec_drop]
  intro ki s hki
  obtain ⟨hc0, hw, ha, hb, hch, hkie⟩ := ki_split g hki
  have hkl : ki * nf + f < g.kh * g.kw * g.src.c * nf := rowmajor_lt hki hf
  simp only [row_code, col_code]
  generalize ki / (g.kw * g.src.c) = a at *
  generalize ki % (g.kw * g.src.c) / g.src.c = b at *
  generalize ki % (g.kw * g.src.c) % g.src.c = ch at *
  have hgu := guard_iff (s := g.src) (i := rowOf g r a) (j := colOf g c b) hch
  by_cases hins : 0 ≤ rowOf g r a ∧ rowOf g r a < g.src.h ∧ 0 ≤ colOf g c b
      ∧ colOf g c b < g.src.w
  · rw [if_neg (by rw [hgu]; simpa using hins), if_neg (by rw [hgu]; simpa using hins)]
    have hl : cellIdx g.src (rowOf g r a).toNat (colOf g c b).toNat ch < g.src.h * g.src.w * g.src.c :=
      cellIdx_lt (by omega) (by omega) hch
    rw [rdI_stored h (pos_eq hins.1 hins.2.2.1) (by omega) (by
        rcases o with o | ⟨rfl, hp, o⟩
        · rcases o with o | o <;> omega
        · have h1 := cell_ge hg hp (r := r) (c := c) (a := a) (b := b) (ch := ch)
          have h2 : windowCell g r c a b ch = cellIdx g.src (rowOf g r a).toNat (colOf g c b).toNat ch := by
            unfold windowCell rowOf colOf
            rw [hp.1, hp.2]
            congr 1 <;> omega
          have h3 : r * g.cols + c ≤ (r * g.cols + c) * g.src.c := Nat.le_mul_of_pos_right _ hc0
          rcases o with o | o <;> omega),
      rd_drop_stored h (by omega) (by rcases ok with o | o <;> omega)]
  · rw [if_pos (by rw [hgu]; exact hins), if_pos (by rw [hgu]; exact hins)]

end

end Verif.Mem

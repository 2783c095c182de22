import Verif.Proofs.Recurrent

namespace Verif.Rnn
open Verif.Spec Finset Verif.Slide

universe u
variable {α : Type u}

/-- A loop that fills a buffer, cell by cell. -/
theorem fill_tab {n : Nat} {f r : Nat → α} {body : Nat → List α → Exec (List α)}
    (h : ∀ i g, i < n → g i = f i → body i (tab n g) = .ok (tab n (upd g i (r i)))) :
    forUp n (tab n f) body = .ok (tab n r) := by
  rw [tab_slots, fill_slot (T := 1) (s := 0) (by omega) (r := r), slots_tab, upd_self]
  intro i g hi hg
  rw [slots_tab, slots_tab, upd_self, upd_self]
  exact h i g hi hg

section kernels
variable [CommSemiring α]

theorem arrSum0_eq {n : Nat} {f x : Nat → α} {src : List α} {sOff : Nat}
    (hx : ∀ j, j < n → rd src (sOff + j) = .ok (x j)) :
    arrSumAt (tab n f) 0 src sOff n = .ok (tab n fun i => f i + x i) := by
  have := arrSumAt_eq (T := 1) (s := 0) (H := n) (by omega) (F := fun _ => f) hx
  rw [Nat.zero_mul, ← tab_slots, slots_tab, upd_self] at this
  exact this

/-- A double loop that updates the cells of a matrix once each. -/
theorem outerAcc_eq {m a b : List α} {aOff bOff rows cols : Nat} {x y : Nat → α}
    {M : Nat → Nat → α} (hm : m = slots rows cols M)
    (hx : ∀ i, i < rows → rd a (aOff + i) = .ok (x i))
    (hy : ∀ j, j < cols → rd b (bOff + j) = .ok (y j)) :
    outerAcc m a aOff b bOff rows cols = .ok (slots rows cols fun i j => M i j + x i * y j) := by
  subst hm
  unfold outerAcc
  have key := forUp_eq (n := rows) (body := fun i m => forUp cols m fun j m => do
      let v ← rd m (i * cols + j)
      let x ← rd a (aOff + i)
      let y ← rd b (bOff + j)
      wr m (i * cols + j) (v + x * y))
    (S := fun k => slots rows cols fun i j => if i < k then M i j + x i * y j else M i j) ?_
  · have e0 : slots rows cols M = slots rows cols fun i j =>
        if i < 0 then M i j + x i * y j else M i j := slots_congr fun s i _ _ => by simp
    rw [e0, key]
    congr 1
    apply slots_congr
    intro s i hs _
    rw [if_pos hs]
  · intro i hi
    rw [fill_slot hi (r := fun j => M i j + x i * y j)]
    · congr 1
      apply slots_congr
      intro s j _ _
      unfold upd
      by_cases h : s = i
      · subst h; rw [if_pos rfl, if_pos (by omega)]
      · rw [if_neg h]
        dsimp only
        by_cases h2 : s < i
        · rw [if_pos h2, if_pos (by omega)]
        · rw [if_neg h2, if_neg (by omega)]
    · intro j f hj hf
      rw [rd_slots _ hi hj, Exec.bind_ok, hx i hi, Exec.bind_ok, hy j hj, Exec.bind_ok,
        wr_slots _ _ hi hj, upd_self, upd_upd', hf, if_neg (by omega)]

theorem tmulAt_eq {tmp w a : List α} {aOff rows cols : Nat} {x : Nat → α}
    (ht : tmp.length = cols) (hw : w.length = rows * cols)
    (hx : ∀ i, i < rows → rd a (aOff + i) = .ok (x i)) :
    tmulAt tmp w a aOff rows cols
      = .ok (tab cols fun j => ∑ i ∈ range rows, mat w cols i j * x i) := by
  rw [eq_tab tmp, ht]
  unfold tmulAt
  apply fill_tab
  intro j g hj hg
  rw [wr_tab _ _ hj, Exec.bind_ok]
  have key := forUp_eq (n := rows) (body := fun i tmp => do
      let v ← rd tmp j
      let x ← rd w (i * cols + j)
      let y ← rd a (aOff + i)
      wr tmp j (v + x * y))
    (S := fun k => tab cols (upd g j (∑ i ∈ range k, mat w cols i j * x i))) ?_
  · rw [← key]; simp
  · intro i hi
    rw [rd_tab _ hj, Exec.bind_ok, rd_vec (by rw [hw]; exact slot_lt hi hj), Exec.bind_ok, hx i hi,
      Exec.bind_ok, wr_tab _ _ hj, upd_self, upd_upd, sum_range_succ, mat_eq_vec]

theorem inputGradAt_eq {T n t rows : Nat} {F : Nat → Nat → α} {a w : List α} (ht : t < T)
    (ha : a.length = rows) (hw : w.length = rows * n) :
    inputGradAt (slots T n F) (t * n) a w rows n
      = .ok (slots T n (upd F t fun j => ∑ i ∈ range rows, vec a i * mat w n i j)) := by
  unfold inputGradAt
  rw [fill_slot ht (r := fun _ => 0) (by
    intro i f hi _
    rw [wr_slots _ _ ht hi, upd_self, upd_upd']), Exec.bind_ok]
  have key := forUp_eq (n := rows) (body := fun i ig => forUp n ig fun j ig => do
      let v ← rd ig (t * n + j)
      let x ← rd a i
      let y ← rd w (i * n + j)
      wr ig (t * n + j) (v + x * y))
    (S := fun k => slots T n (upd F t fun j => ∑ i ∈ range k, vec a i * mat w n i j)) ?_
  · rw [← key]; simp
  · intro i hi
    rw [fill_slot ht (r := fun j => ∑ q ∈ range (i + 1), vec a q * mat w n q j)]
    · rw [upd_upd']
    · intro j f hj hf
      rw [rd_slots _ ht hj, Exec.bind_ok, rd_vec (by omega), Exec.bind_ok,
        rd_vec (by rw [hw]; exact slot_lt hi hj), Exec.bind_ok, wr_slots _ _ ht hj, upd_self,
        upd_upd', hf, upd_self, sum_range_succ, mat_eq_vec]

theorem mapFrom_eq {n : Nat} {dst src : List α} {sOff : Nat} {x : Nat → α} (f1 : α → α)
    (hd : dst.length = n) (hx : ∀ j, j < n → rd src (sOff + j) = .ok (x j)) :
    mapFrom f1 dst src sOff n = .ok (tab n fun i => f1 (x i)) := by
  rw [eq_tab dst, hd]
  unfold mapFrom
  apply fill_tab
  intro i g hi hg
  rw [hx i hi, Exec.bind_ok, wr_tab _ _ hi]

theorem arrMulInto_eq {n : Nat} {f g : Nat → α} :
    arrMulInto (tab n f) (tab n g) n = .ok (tab n fun i => f i * g i) := by
  unfold arrMulInto
  apply fill_tab
  intro i h hi hh
  rw [rd_tab _ hi, Exec.bind_ok, rd_tab _ hi, Exec.bind_ok, wr_tab _ _ hi, hh]

end kernels

/-- Sizes of the gradient buffers, of the recorded input and of the incoming gradient. -/
structure SizedBack (l : Layer α) (gradients : List α) : Prop extends Sized l where
  gih : l.gih.length = l.hiddenSize * l.inputSize
  ghh : l.ghh.length = l.hiddenSize * l.hiddenSize
  gho : l.gho.length = l.outputSize * l.hiddenSize
  gbh : l.gbh.length = l.hiddenSize
  gbo : l.gbo.length = l.outputSize
  ig : l.inputGrads.length = l.timeSteps * l.inputSize
  lastInput : l.lastInput.length = l.timeSteps * l.inputSize
  gradients : gradients.length = l.timeSteps * l.outputSize

/-- Block of the hidden buffer that `backward` takes for the state after step `t`. -/
def cur (T t : Nat) : Nat := if t + 1 ≥ T then 0 else t + 1

section back
variable [CommSemiring α]

/-- Local factors used by the code: `act1` of the stored (already activated) state. -/
def factor (act1 : α → α) (l : Layer α) (t i : Nat) : α :=
  act1 (mat l.hidden l.hiddenSize (cur l.timeSteps t) i)

/-- `backward` in closed form. -/
theorem backward_eq (act1 : α → α) {l : Layer α} {gradients : List α}
    (hl : SizedBack l gradients) :
    let g := mat gradients l.outputSize
    let δ := (cell l).delta (factor act1 l) g l.timeSteps
    let T := l.timeSteps
    l.backward act1 gradients = .ok { l with
      gbo := tab l.outputSize fun i => vec l.gbo i + ∑ t ∈ range T, g t i
      gho := slots l.outputSize l.hiddenSize fun i j => mat l.gho l.hiddenSize i j
        + ∑ t ∈ range T, g t i * mat l.hidden l.hiddenSize (cur T t) j
      gbh := tab l.hiddenSize fun i => vec l.gbh i + ∑ t ∈ range T, δ t i
      gih := slots l.hiddenSize l.inputSize fun i j => mat l.gih l.inputSize i j
        + ∑ t ∈ range T, δ t i * mat l.lastInput l.inputSize t j
      ghh := slots l.hiddenSize l.hiddenSize fun i j => mat l.ghh l.hiddenSize i j
        + ∑ t ∈ range T, δ t i * mat l.hidden l.hiddenSize t j
      inputGrads := slots T l.inputSize fun t j =>
        ∑ i ∈ range l.hiddenSize, δ t i * mat l.wih l.inputSize i j } := by
  intro g δ T
  let c := (cell l).carry (factor act1 l) g T
  have hTm : ∀ {t}, t < T → t < Nat.max T 1 := fun h => lt_of_lt_of_le h (Nat.le_max_left _ _)
  have hcur : ∀ {t}, t < T → cur T t < T := by
    intro t h; unfold cur; split <;> omega
  have hmax : ∀ {t}, t < T → Nat.max T 1 = T := fun h => Nat.max_eq_left (by omega)
  have hhid : ∀ {t}, t < T → l.hidden.length = T * l.hiddenSize := fun h => by
    rw [hl.hidden, ← hmax h]
  have rdh : ∀ s j, s < T → j < l.hiddenSize →
      rd l.hidden (s * l.hiddenSize + j) = .ok (mat l.hidden l.hiddenSize s j) := by
    intro s j hs hj
    rw [rd_vec (by rw [hhid hs]; exact slot_lt hs hj), mat_eq_vec]
  have rdg : ∀ s j, s < T → j < l.outputSize →
      rd gradients (s * l.outputSize + j) = .ok (g s j) := by
    intro s j hs hj
    rw [rd_vec (by rw [hl.gradients]; exact slot_lt hs hj)]; rfl
  have rdx : ∀ s j, s < T → j < l.inputSize →
      rd l.lastInput (s * l.inputSize + j) = .ok (mat l.lastInput l.inputSize s j) := by
    intro s j hs hj
    rw [rd_vec (by rw [hl.lastInput]; exact slot_lt hs hj)]; rfl
  let S : Nat → BState α := fun k =>
    { gbo := tab l.outputSize fun i => vec l.gbo i + ∑ q ∈ range k, g (T - 1 - q) i
      gho := slots l.outputSize l.hiddenSize fun i j => mat l.gho l.hiddenSize i j
        + ∑ q ∈ range k, g (T - 1 - q) i * mat l.hidden l.hiddenSize (cur T (T - 1 - q)) j
      gbh := tab l.hiddenSize fun i => vec l.gbh i + ∑ q ∈ range k, δ (T - 1 - q) i
      gih := slots l.hiddenSize l.inputSize fun i j => mat l.gih l.inputSize i j
        + ∑ q ∈ range k, δ (T - 1 - q) i * mat l.lastInput l.inputSize (T - 1 - q) j
      ghh := slots l.hiddenSize l.hiddenSize fun i j => mat l.ghh l.hiddenSize i j
        + ∑ q ∈ range k, δ (T - 1 - q) i * mat l.hidden l.hiddenSize (T - 1 - q) j
      ig := slots T l.inputSize fun t j => if T ≤ t + k then
        ∑ i ∈ range l.hiddenSize, δ t i * mat l.wih l.inputSize i j
        else mat l.inputGrads l.inputSize t j
      carry := tab l.hiddenSize (c k) }
  have key := forUp_eq (n := T) (S := S)
    (body := fun k s => Layer.backStep act1 l gradients (l.timeSteps - 1 - k) s) ?_
  · unfold Layer.backward
    have e0 : (⟨l.gbo, l.gho, l.gbh, l.gih, l.ghh, l.inputGrads, List.replicate l.hiddenSize 0⟩
        : BState α) = S 0 := by
      simp only [S, sum_range_zero, add_zero, BState.mk.injEq]
      refine ⟨?_, ?_, ?_, ?_, ?_, ?_, ?_⟩
      · rw [← hl.gbo]; exact eq_tab _
      · exact eq_slots hl.gho
      · rw [← hl.gbh]; exact eq_tab _
      · exact eq_slots hl.gih
      · exact eq_slots hl.ghh
      · conv_lhs => rw [eq_slots hl.ig]
        apply slots_congr
        intro t i ht _
        rw [if_neg (by omega)]
      · rw [replicate_slots, slots_tab]; rfl
    rw [e0, key, Exec.bind_ok]
    simp only [S, Exec.pure_eq_ok]
    congr 2
    · apply slots_congr
      intro i j _ _
      rw [sum_range_reflect (fun t => δ t i * mat l.lastInput l.inputSize t j) T]
    · apply slots_congr
      intro i j _ _
      rw [sum_range_reflect (fun t => δ t i * mat l.hidden l.hiddenSize t j) T]
    · apply slots_congr
      intro i j _ _
      rw [sum_range_reflect (fun t => g t i * mat l.hidden l.hiddenSize (cur T t) j) T]
    · apply tab_congr
      intro i _
      rw [sum_range_reflect (fun t => δ t i) T]
    · apply tab_congr
      intro i _
      rw [sum_range_reflect (fun t => g t i) T]
    · apply slots_congr
      intro t j ht _
      rw [if_pos (by omega)]
  · intro k hk
    have ht : T - 1 - k < T := by omega
    have hδ : ∀ i, factor act1 l (T - 1 - k) i * (∑ o ∈ range l.outputSize,
        mat l.who l.hiddenSize o i * g (T - 1 - k) o + c k i) = δ (T - 1 - k) i := by
      intro i
      show _ = _ * (_ + (cell l).carry (factor act1 l) g T (T - 1 - (T - 1 - k)) i)
      rw [show T - 1 - (T - 1 - k) = k by omega]
      rfl
    unfold Layer.backStep
    simp only [S]
    rw [arrSum0_eq (fun j hj => rdg _ j ht hj), Exec.bind_ok]
    rw [show (if l.timeSteps - 1 - k + 1 ≥ l.timeSteps then 0 else l.timeSteps - 1 - k + 1)
      = cur T (T - 1 - k) from rfl]
    rw [outerAcc_eq rfl (fun j hj => rdg _ j ht hj) (fun j hj => rdh _ j (hcur ht) hj),
      Exec.bind_ok]
    rw [tmulAt_eq (by simp) hl.who (fun j hj => rdg _ j ht hj), Exec.bind_ok]
    rw [arrSum0_eq (x := c k) (by intro j hj; rw [Nat.zero_add, rd_tab _ hj]), Exec.bind_ok]
    rw [mapFrom_eq act1 (by simp) (fun j hj => rdh _ j (hcur ht) hj), Exec.bind_ok]
    rw [arrMulInto_eq, Exec.bind_ok]
    have hns : (tab l.hiddenSize fun i => act1 (mat l.hidden l.hiddenSize (cur T (T - 1 - k)) i) *
        (∑ o ∈ range l.outputSize, mat l.who l.hiddenSize o i * g (T - 1 - k) o + c k i))
        = tab l.hiddenSize (δ (T - 1 - k)) := tab_congr fun i _ => hδ i
    have rdd : ∀ j, j < l.hiddenSize →
        rd (tab l.hiddenSize (δ (T - 1 - k))) (0 + j) = .ok (δ (T - 1 - k) j) := by
      intro j hj; rw [Nat.zero_add, rd_tab _ hj]
    rw [hns, arrSum0_eq rdd, Exec.bind_ok]
    rw [outerAcc_eq rfl rdd (fun j hj => rdx _ j ht hj), Exec.bind_ok]
    rw [outerAcc_eq rfl rdd (fun j hj => rdh _ j ht hj), Exec.bind_ok]
    rw [inputGradAt_eq ht (by simp) hl.wih, Exec.bind_ok]
    rw [tmulAt_eq (by simp) hl.whh rdd, Exec.bind_ok, Exec.pure_eq_ok]
    congr 2
    · apply tab_congr; intro i _; rw [sum_range_succ, add_assoc]
    · apply slots_congr; intro i j _ _; rw [sum_range_succ, add_assoc]
    · apply tab_congr; intro i _; rw [sum_range_succ, add_assoc]
    · apply slots_congr; intro i j _ _; rw [sum_range_succ, add_assoc]
    · apply slots_congr; intro i j _ _; rw [sum_range_succ, add_assoc]
    · apply slots_congr
      intro t j htT _
      unfold upd
      by_cases h : t = T - 1 - k
      · rw [if_pos h, if_pos (by omega), h]
        apply sum_congr rfl
        intro i hi
        rw [vec_tab _ (by simpa using hi)]
      · rw [if_neg h]
        dsimp only
        by_cases h2 : T ≤ t + k
        · rw [if_pos h2, if_pos (by omega)]
        · rw [if_neg h2, if_neg (by omega)]
    · apply tab_congr
      intro i _
      show _ = ∑ j ∈ range l.hiddenSize, _
      apply sum_congr rfl
      intro j _
      rw [← hδ j]
      rfl

end back

end Verif.Rnn

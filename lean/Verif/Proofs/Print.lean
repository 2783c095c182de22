import Verif.Spec.Print
import Verif.Proofs.Tab

/-! What `print` writes. -/

namespace Verif.Print

open Verif.Net Verif.Spec

theorem upTo_ok {n : Nat} {f : Nat → Exec (List Item)} {F : Nat → List Item} (h : ∀ i < n, f i = .ok (F i)) :
    upTo n f = .ok ((List.range n).flatMap F) := by
  induction n with
  | zero => rfl
  | succ n ih =>
    unfold upTo
    rw [ih fun i hi => h i (by omega), Exec.bind_ok, h n (by omega), Exec.bind_ok, List.range_succ,
      List.flatMap_append]
    simp

theorem upTo_ub {n : Nat} {f : Nat → Exec (List Item)} (hn : 0 < n) (h : f 0 = .ub) : upTo n f = .ub := by
  induction n with
  | zero => omega
  | succ n ih =>
    unfold upTo
    rcases Nat.eq_zero_or_pos n with rfl | hn'
    · show ((Exec.ok []) >>= _) = _
      rw [Exec.bind_ok, h]
      rfl
    · rw [ih hn']
      rfl

/-- What readers see of items that contain no headers, whatever follows. -/
structure Body (items : List Item) (xs : List ℝ) (ps : List (Nat × ℝ)) : Prop where
  numbers : ∀ rest, numbers (items ++ rest) = xs ++ numbers rest
  indexed : ∀ rest, indexed (items ++ rest) = ps ++ indexed rest
  sections : ∀ rest, sections (items ++ rest) = sections rest
  takeWhile : ∀ rest, (items ++ rest).takeWhile notHead = items ++ rest.takeWhile notHead

theorem Body.nil : Body [] [] [] := ⟨fun _ => rfl, fun _ => rfl, fun _ => rfl, fun _ => rfl⟩

theorem Body.append {i j : List Item} {x y : List ℝ} {p q : List (Nat × ℝ)} (h : Body i x p) (k : Body j y q) :
    Body (i ++ j) (x ++ y) (p ++ q) :=
  ⟨fun r => by rw [List.append_assoc, h.numbers, k.numbers, List.append_assoc],
    fun r => by rw [List.append_assoc, h.indexed, k.indexed, List.append_assoc],
    fun r => by rw [List.append_assoc, h.sections, k.sections],
    fun r => by rw [List.append_assoc, h.takeWhile, k.takeWhile, List.append_assoc]⟩

theorem Body.flatMap {F : Nat → List Item} {X : Nat → List ℝ} {P : Nat → List (Nat × ℝ)} :
    ∀ is : List Nat, (∀ i ∈ is, Body (F i) (X i) (P i)) → Body (is.flatMap F) (is.flatMap X) (is.flatMap P)
  | [], _ => Body.nil
  | i :: is, h => by
    simp only [List.flatMap_cons]
    exact (h i List.mem_cons_self).append (Body.flatMap is fun j hj => h j (List.mem_cons_of_mem _ hj))

theorem flat_nil {β : Type} (is : List Nat) : is.flatMap (fun _ => ([] : List β)) = [] := by
  induction is with
  | nil => rfl
  | cons i is ih => rw [List.flatMap_cons, ih]; rfl

theorem body_text (s : String) : Body [.text s] [] [] := ⟨fun _ => rfl, fun _ => rfl, fun _ => rfl, fun _ => rfl⟩

theorem body_num (x : ℝ) : Body [.num x] [x] [] := ⟨fun _ => rfl, fun _ => rfl, fun _ => rfl, fun _ => rfl⟩

theorem body_cell (n : Nat) (x : ℝ) : Body [.text "\t[", .nat n, .text "]", .num x] [x] [(n, x)] :=
  ⟨fun _ => rfl, fun _ => rfl, fun _ => rfl, fun _ => rfl⟩

/-- Numbering a matrix row by row. -/
theorem range_rows {β : Type} (g : Nat → β) (rows cols : Nat) :
    ((List.range rows).flatMap fun i => (List.range cols).map fun j => g (i * cols + j))
      = (List.range (rows * cols)).map g := by
  induction rows with
  | zero => simp
  | succ r ih =>
    rw [List.range_succ, List.flatMap_append, ih, Nat.succ_mul, List.range_add, List.map_append, List.map_map]
    simp [Function.comp_def]

theorem range_rows_from {β : Type} (g : Nat → β) (a rows cols : Nat) :
    ((List.range rows).flatMap fun i => (List.range cols).map fun j => g ((a * rows + i) * cols + j))
      = (List.range (rows * cols)).map fun k => g (a * (rows * cols) + k) := by
  rw [← range_rows (fun k => g (a * (rows * cols) + k))]
  congr 1
  funext i
  congr 1
  funext j
  congr 1
  ring

theorem map_vec {w : List ℝ} {n : Nat} (h : w.length = n) : (List.range n).map (vec w) = w := by
  subst h
  apply List.ext_getElem
  · simp
  · intro i h1 h2
    simp [vec, h2]

/-- The numbers of a list with their positions. -/
theorem map_pairs {w : List ℝ} {n : Nat} (h : w.length = n) :
    ((List.range n).map fun i => (i, vec w i)) = w.zipIdx.map Prod.swap := by
  subst h
  apply List.ext_getElem
  · simp
  · intro i h1 h2
    simp at h2
    simp [vec, h2]

theorem matrix_ok {rows cols : Nat} {close : List Item} {w : List ℝ} (hc : Body close [] [])
    (h : w.length = rows * cols) :
    ∃ items, matrix rows cols close w = .ok items ∧ Body items w (w.zipIdx.map Prod.swap) := by
  have hb : ∀ i < rows, ∀ j < cols, i * cols + j < w.length := by
    intro i hi j hj
    rw [h]
    calc i * cols + j < i * cols + cols := by omega
      _ = (i + 1) * cols := (Nat.succ_mul i cols).symm
      _ ≤ rows * cols := Nat.mul_le_mul_right _ hi
  refine ⟨_, upTo_ok (F := fun i => ((List.range cols).flatMap fun j =>
    [.text "\t[", .nat (i * cols + j), .text "]", .num (vec w (i * cols + j))] ++ close) ++ [.text "\n"]) ?_, ?_⟩
  · intro i hi
    rw [upTo_ok (F := fun j => [.text "\t[", .nat (i * cols + j), .text "]", .num (vec w (i * cols + j))] ++ close)
      (fun j hj => by rw [rd_vec (hb i hi j hj), Exec.bind_ok]), Exec.bind_ok]
  · have := Body.flatMap (F := fun i => ((List.range cols).flatMap fun j =>
        [.text "\t[", .nat (i * cols + j), .text "]", .num (vec w (i * cols + j))] ++ close) ++ [.text "\n"])
      (X := fun i => (List.range cols).map fun j => vec w (i * cols + j))
      (P := fun i => (List.range cols).map fun j => (i * cols + j, vec w (i * cols + j))) (List.range rows) (by
        intro i _
        have hrow := Body.flatMap (F := fun j =>
            [.text "\t[", .nat (i * cols + j), .text "]", .num (vec w (i * cols + j))] ++ close)
          (X := fun j => [vec w (i * cols + j)]) (P := fun j => [(i * cols + j, vec w (i * cols + j))])
          (List.range cols) (fun j _ => by simpa using (body_cell _ _).append hc)
        have := hrow.append (body_text "\n")
        simpa [← List.map_eq_flatMap] using this)
    rw [range_rows (vec w), range_rows (fun k => (k, vec w k)), map_vec h, map_pairs h] at this
    exact this

theorem column_ok {n : Nat} {b : List ℝ} (h : b.length = n) :
    ∃ items, column n b = .ok items ∧ Body items b [] := by
  refine ⟨_, upTo_ok (F := fun i => [.text "\t", .num (vec b i), .text "\n"]) ?_, ?_⟩
  · intro i hi
    rw [rd_vec (by omega), Exec.bind_ok]
  · have := Body.flatMap (F := fun i => [.text "\t", .num (vec b i), .text "\n"]) (X := fun i => [vec b i])
      (P := fun _ => []) (List.range n) (fun i _ => by
        simpa using ((body_text "\t").append (body_num (vec b i))).append (body_text "\n"))
    rw [flat_nil, ← List.map_eq_flatMap, map_vec h] at this
    exact this

theorem body_nat (n : Nat) (s : String) (hs : s ≠ "]") : Body [.nat n, .text s] [] [] := by
  refine ⟨fun _ => rfl, fun r => ?_, fun _ => rfl, fun _ => rfl⟩
  show indexed (.nat n :: .text s :: r) = indexed r
  rw [indexed.eq_3 (.nat n)]
  · rfl
  · intro m x is h1 h2
    injection h2 with h2
    injection h2 with h2
    exact hs h2

theorem pred64_eq {n : Nat} (h : 0 < n) (h' : n < 2 ^ 64) : pred64 n = n - 1 := by
  unfold pred64
  rw [show n + 2 ^ 64 - 1 = (n - 1) + 2 ^ 64 by omega, Nat.add_mod_right, Nat.mod_eq_of_lt (by omega)]

theorem conv_weights {l : Slide.ConvLayer ℝ}
    (h : l.weights.length = l.kernel.h * l.kernel.w * l.input.c * l.nFilters) (hn : 0 < l.nFilters)
    (hl : l.weights.length < 2 ^ 64) :
    ∃ items, (upTo l.kernel.h fun r => upTo l.kernel.w fun c => upTo l.input.c fun ch => do
      let offset := r * l.kernel.w * l.input.c * l.nFilters + c * l.input.c * l.nFilters + ch * l.nFilters
      let row ← upTo (pred64 l.nFilters) fun f => do
        let x ← rd l.weights (offset + f)
        .ok [.num x, .text ", "]
      let x ← rd l.weights (pred64 (offset + l.nFilters))
      .ok ([.text "\t[", .nat r, .text ",", .nat c, .text ",", .nat ch, .text ",0:", .nat l.nFilters, .text "]\n"]
        ++ row ++ [.num x, .text "\n"])) = .ok items ∧ Body items l.weights [] := by
  have hoff : ∀ r c ch, r * l.kernel.w * l.input.c * l.nFilters + c * l.input.c * l.nFilters + ch * l.nFilters
      = ((r * l.kernel.w + c) * l.input.c + ch) * l.nFilters := by intro r c ch; ring
  have step : ∀ {a b i j : Nat}, i < a → j < b → i * b + j < a * b := by
    intro a b i j hi hj
    calc i * b + j < i * b + b := by omega
      _ = (i + 1) * b := (Nat.succ_mul i b).symm
      _ ≤ a * b := Nat.mul_le_mul_right _ hi
  have hlt : ∀ r < l.kernel.h, ∀ c < l.kernel.w, ∀ ch < l.input.c, ∀ f < l.nFilters,
      ((r * l.kernel.w + c) * l.input.c + ch) * l.nFilters + f < l.weights.length := by
    intro r hr c hc ch hch f hf
    rw [h]
    exact step (step (step hr hc) hch) hf
  let row := fun (r c ch : Nat) => [Item.text "\t[", .nat r, .text ",", .nat c, .text ",", .nat ch, .text ",0:",
    .nat l.nFilters, .text "]\n"] ++ ((List.range (l.nFilters - 1)).flatMap fun f =>
      [Item.num (vec l.weights (((r * l.kernel.w + c) * l.input.c + ch) * l.nFilters + f)), .text ", "])
    ++ [.num (vec l.weights (((r * l.kernel.w + c) * l.input.c + ch) * l.nFilters + (l.nFilters - 1))), .text "\n"]
  have hrow : ∀ r c ch, Body (row r c ch) ((List.range l.nFilters).map fun f =>
      vec l.weights (((r * l.kernel.w + c) * l.input.c + ch) * l.nFilters + f)) [] := by
    intro r c ch
    have h1 := ((body_text "\t[").append (body_nat r "," (by decide))).append ((body_nat c "," (by decide)).append
      ((body_nat ch ",0:" (by decide)).append (body_nat l.nFilters "]\n" (by decide))))
    have h2 := Body.flatMap (F := fun f =>
        [Item.num (vec l.weights (((r * l.kernel.w + c) * l.input.c + ch) * l.nFilters + f)), .text ", "])
      (X := fun f => [vec l.weights (((r * l.kernel.w + c) * l.input.c + ch) * l.nFilters + f)]) (P := fun _ => [])
      (List.range (l.nFilters - 1)) (fun f _ => (body_num _).append (body_text _))
    have h3 := (body_num (vec l.weights (((r * l.kernel.w + c) * l.input.c + ch) * l.nFilters + (l.nFilters - 1)))).append
      (body_text "\n")
    have h4 := (h1.append h2).append h3
    rw [flat_nil, ← List.map_eq_flatMap] at h4
    obtain ⟨n, hn'⟩ : ∃ n, l.nFilters = n + 1 := ⟨l.nFilters - 1, by omega⟩
    have e : ((List.range l.nFilters).map fun f =>
        vec l.weights (((r * l.kernel.w + c) * l.input.c + ch) * l.nFilters + f))
        = ((List.range (l.nFilters - 1)).map fun f =>
          vec l.weights (((r * l.kernel.w + c) * l.input.c + ch) * l.nFilters + f))
          ++ [vec l.weights (((r * l.kernel.w + c) * l.input.c + ch) * l.nFilters + (l.nFilters - 1))] := by
      rw [hn', List.range_succ, List.map_append]
      rfl
    rw [e]
    exact h4
  refine ⟨_, upTo_ok (F := fun r => (List.range l.kernel.w).flatMap fun c => (List.range l.input.c).flatMap fun ch =>
    row r c ch) ?_, ?_⟩
  · intro r hr
    refine upTo_ok fun c hc => upTo_ok fun ch hch => ?_
    dsimp only
    have hp : l.nFilters < 2 ^ 64 := by
      have := hlt r hr c hc ch hch (l.nFilters - 1) (by omega)
      omega
    have hq := hlt r hr c hc ch hch (l.nFilters - 1) (by omega)
    rw [hoff, pred64_eq hn hp, upTo_ok (F := fun f =>
      [Item.num (vec l.weights (((r * l.kernel.w + c) * l.input.c + ch) * l.nFilters + f)), .text ", "])
      (fun f hf => by rw [rd_vec (hlt r hr c hc ch hch f (by omega)), Exec.bind_ok]), Exec.bind_ok,
      pred64_eq (by omega) (by omega), Nat.add_sub_assoc hn, rd_vec hq, Exec.bind_ok]
  · have := Body.flatMap (List.range l.kernel.h) fun r _ => Body.flatMap (List.range l.kernel.w) fun c _ =>
      Body.flatMap (List.range l.input.c) fun ch _ => hrow r c ch
    simp only [flat_nil] at this
    rw [show (fun r => (List.range l.kernel.w).flatMap fun c => (List.range l.input.c).flatMap fun ch =>
        (List.range l.nFilters).map fun f => vec l.weights (((r * l.kernel.w + c) * l.input.c + ch) * l.nFilters + f))
      = fun r => (List.range (l.kernel.w * (l.input.c * l.nFilters))).map fun k =>
        vec l.weights (r * (l.kernel.w * (l.input.c * l.nFilters)) + k) from ?_] at this
    · rw [range_rows (vec l.weights), map_vec (by rw [h]; ring)] at this
      exact this
    · funext r
      simp only [range_rows_from (vec l.weights)]

end Verif.Print

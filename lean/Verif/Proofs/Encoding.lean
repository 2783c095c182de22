import Verif.Model.Encoding
import Verif.Spec.Encoding
import Verif.Proofs.DataShuffle

/-! The label encodings. -/

namespace Verif.Data

open Verif.Spec

variable {α : Type}

/-- `f` with the list `b` laid over it from position `off` on. -/
def overlay [Zero α] (f : Nat → α) (off : Nat) (b : List α) : Nat → α := fun q =>
  if off ≤ q ∧ q < off + b.length then vec b (q - off) else f q

theorem vec_append_left [Zero α] {a b : List α} {i : Nat} (h : i < a.length) :
    vec (a ++ b) i = vec a i := by
  simp only [vec, List.getD_eq_getElem?_getD]
  rw [List.getElem?_append_left h]

theorem vec_append_right [Zero α] {a b : List α} {i : Nat} (h : a.length ≤ i) :
    vec (a ++ b) i = vec b (i - a.length) := by
  simp only [vec, List.getD_eq_getElem?_getD]
  rw [List.getElem?_append_right h]

theorem overlay_append [Zero α] (f : Nat → α) (off : Nat) (a b : List α) :
    overlay (overlay f off a) (off + a.length) b = overlay f off (a ++ b) := by
  funext q
  unfold overlay
  rw [List.length_append]
  by_cases h1 : off + a.length ≤ q ∧ q < off + a.length + b.length
  · rw [if_pos h1, if_pos (by omega), vec_append_right (by omega), Nat.sub_sub]
  · rw [if_neg h1]
    by_cases h2 : off ≤ q ∧ q < off + a.length
    · rw [if_pos h2, if_pos (by omega), vec_append_left (by omega)]
    · rw [if_neg h2, if_neg (by omega)]

/-- A loop that writes `b` at `off`. -/
theorem write_block [Zero α] {L off : Nat} (b : List α) (f : Nat → α) (h : off + b.length ≤ L)
    {body : Nat → List α → Exec (List α)}
    (hb : ∀ j < b.length, ∀ s, body j s = wr s (off + j) (vec b j)) :
    forUp b.length (tab L f) body = .ok (tab L (overlay f off b)) := by
  have key := forUp_returns (n := b.length) (s := tab L f) (body := body)
    (fun k s => s = tab L (overlay f off (b.take k))) ?_ ?_
  · obtain ⟨s, h1, h2⟩ := key
    rw [h1, h2, List.take_length]
  · apply tab_congr
    intro q _
    unfold overlay
    rw [if_neg (by simp)]
  · rintro k s hk rfl
    refine ⟨_, ?_, rfl⟩
    rw [hb k hk, wr_tab _ _ (by omega)]
    congr 1
    apply tab_congr
    intro q _
    have ht : (b.take (k + 1)).length = k + 1 := by rw [List.length_take]; omega
    have ht' : (b.take k).length = k := by rw [List.length_take]; omega
    have hv : ∀ m i, i < m → vec (b.take m) i = vec b i := by
      intro m i hi
      simp only [vec, List.getD_eq_getElem?_getD]
      rw [List.getElem?_take_of_lt hi]
    by_cases e : q = off + k
    · subst e
      rw [upd_self]
      unfold overlay
      rw [if_pos (by omega), hv _ _ (by omega)]
      congr 1
      omega
    · rw [upd_ne _ _ e]
      unfold overlay
      rw [ht, ht']
      by_cases h1 : off ≤ q ∧ q < off + k
      · rw [if_pos h1, if_pos (by omega), hv _ _ (by omega), hv _ _ (by omega)]
      · rw [if_neg h1, if_neg (by omega)]

/-! ### Ranks -/

theorem rank_eq [LinearOrder α] (l : List α) (hl : l.Pairwise (· < ·)) {i : Nat} {v : α}
    (h : l[i]? = some v) : (l.filter (· < v)).length = i := by
  induction l generalizing i with
  | nil => simp at h
  | cons a t ih =>
    rw [List.pairwise_cons] at hl
    rcases i with _ | i
    · simp only [List.getElem?_cons_zero, Option.some.injEq] at h
      subst h
      rw [List.length_eq_zero_iff, List.filter_eq_nil_iff]
      intro x hx
      rcases List.mem_cons.mp hx with rfl | hx
      · simp
      · have := hl.1 x hx
        simpa using this.le
    · rw [List.getElem?_cons_succ] at h
      have hlt : a < v := hl.1 v (List.mem_of_getElem? h)
      rw [List.filter_cons_of_pos (by simpa using hlt), List.length_cons, ih hl.2 h]

theorem sort_lt [LinearOrder α] (s : Finset α) : (s.sort (· ≤ ·)).Pairwise (· < ·) := by
  have h1 := Finset.pairwise_sort s (· ≤ ·)
  have h2 := Finset.sort_nodup s (· ≤ ·)
  exact (h1.and h2).imp fun h => lt_of_le_of_ne h.1 h.2

theorem card_filter_sort [LinearOrder α] (s : Finset α) (p : α → Bool) :
    (s.filter fun x => p x).card = ((s.sort (· ≤ ·)).filter p).length := by
  rw [← List.toFinset_card_of_nodup ((Finset.sort_nodup s _).filter _)]
  congr 1
  ext x
  simp

theorem mapAt_rank [LinearOrder α] {s : Finset α} {v : α} (h : v ∈ s) :
    mapAt (s.sort (· ≤ ·)).zipIdx v = .ok (s.filter (· < v)).card := by
  have hm : v ∈ s.sort (· ≤ ·) := (Finset.mem_sort _).mpr h
  unfold mapAt
  rcases hf : (s.sort (· ≤ ·)).zipIdx.find? (fun q => q.1 = v) with _ | ⟨w, i⟩
  · exfalso
    rw [List.find?_eq_none] at hf
    obtain ⟨i, hi, e⟩ := List.mem_iff_getElem.mp hm
    have := hf (v, i) (by
      rw [List.mem_zipIdx_iff_getElem?]
      simpa [List.getElem?_eq_getElem hi] using e)
    simp at this
  · have h1 := List.find?_some hf
    have h2 := List.mem_of_find?_eq_some hf
    have hw : w = v := by simpa using h1
    subst hw
    rw [List.mem_zipIdx_iff_getElem?] at h2
    have hr := rank_eq _ (sort_lt s) h2
    have hc := card_filter_sort s (fun x => decide (x < w))
    simp only [decide_eq_true_eq] at hc
    rw [hf, hc, hr]

/-! ### The maps -/

theorem unique_ok [DecidableEq α] [Zero α] {p : Source α} (h : p.WellFormed) {l : Nat} (hl : l < p.featureSize) :
    p.unique l = .ok (valuesOf p.rows l) := by
  unfold Source.unique
  rw [collect_ok (g := fun i => (p.rows.getD i []).getD l 0), Exec.bind_ok]
  · congr 1
    unfold valuesOf
    congr 1
    apply List.ext_getElem?
    intro i
    rw [List.getElem?_map, List.getElem?_map]
    by_cases hi : i < p.rows.length
    · rw [List.getElem?_range hi, List.getElem?_eq_getElem hi]
      simp [List.getElem?_eq_getElem hi]
    · rw [List.getElem?_eq_none (by simpa using hi), List.getElem?_eq_none (by simpa using hi)]
      rfl
  · intro i hi
    have hi : i < p.rows.length := by simpa using hi
    have hr : p.rows[i]? = some (p.rows.getD i []) := by
      simp [List.getElem?_eq_getElem hi]
    rw [rd_of_some hr, Exec.bind_ok]
    have hlen := h.long _ (List.mem_of_getElem? hr)
    rw [rd_vec (by omega)]
    rfl

theorem mem_iter (s : Finset Nat) (i : Nat) : i ∈ iter s ↔ i ∈ s := Finset.mem_sort _

theorem uniqueMaps_ok [LinearOrder α] [Zero α] {p : Source α} (h : p.WellFormed) :
    collect p.uniqueMap (iter p.labels)
      = .ok ((iter p.labels).map fun l => ((valuesOf p.rows l).sort (· ≤ ·)).zipIdx) := by
  apply collect_ok
  intro l hl
  unfold Source.uniqueMap
  rw [unique_ok h (h.labels l ((mem_iter _ _).mp hl)), Exec.bind_ok]

theorem foldl_sum {β : Type} (f : β → Nat) (l : List β) (a : Nat) :
    l.foldl (fun e m => e + f m) a = a + (l.map f).sum := by
  induction l generalizing a with
  | nil => simp
  | cons x xs ih => rw [List.foldl_cons, ih, List.map_cons, List.sum_cons]; omega

/-- The number of columns after the encoding. -/
def encSize [DecidableEq α] [Zero α] (p : Source α) : Nat :=
  p.featureSize - p.labels.card + ((iter p.labels).map fun l => (valuesOf p.rows l).card).sum

theorem oneHotFeatureSize_ok [DecidableEq α] [Zero α] {p : Source α} (h : p.WellFormed) :
    p.oneHotFeatureSize = .ok (encSize p) := by
  unfold Source.oneHotFeatureSize
  rw [collect_ok (g := fun l => valuesOf p.rows l), Exec.bind_ok, foldl_sum, List.map_map]
  · rfl
  · intro l hl
    exact unique_ok h (h.labels l ((mem_iter _ _).mp hl))

theorem oneHot_length [LinearOrder α] [Zero α] [One α] (s : Finset α) (v : α) :
    (oneHot s v).length = s.card := by simp [oneHot]

theorem labelBlocks_length [LinearOrder α] [Zero α] [One α] (rs : List (List α)) (ls : List Nat)
    (r : List α) : (labelBlocks rs ls r).length = (ls.map fun l => (valuesOf rs l).card).sum := by
  unfold labelBlocks
  rw [List.length_flatten, List.map_map]
  congr 1
  apply List.map_congr_left
  intro l _
  exact oneHot_length _ _

/-- The copy of the inputs of one row. -/
theorem copyInputs_ok [Zero α] {L fs base : Nat} {labels : Finset Nat} {row : List α} (f : Nat → α)
    (hr : fs ≤ row.length) (hL : base + fs ≤ L) :
    copyInputs fs labels base row (tab L f) = .ok (tab L fun q =>
      if base ≤ q ∧ q < base + fs ∧ q - base ∉ labels then vec row (q - base) else f q) := by
  unfold copyInputs
  have key := forUp_returns (n := fs) (s := tab L f) (body := fun col ret =>
      if col ∉ labels then do
        let v ← rd row col
        wr ret (base + col) v
      else .ok ret)
    (fun k s => s = tab L fun q =>
      if base ≤ q ∧ q < base + k ∧ q - base ∉ labels then vec row (q - base) else f q) ?_ ?_
  · obtain ⟨s, h1, h2⟩ := key
    rw [h1, h2]
  · apply tab_congr
    intro q _
    rw [if_neg (by omega)]
  · rintro k s hk rfl
    refine ⟨_, ?_, rfl⟩
    by_cases hm : k ∈ labels
    · rw [if_neg (not_not.mpr hm)]
      congr 1
      apply tab_congr
      intro q _
      by_cases h1 : base ≤ q ∧ q < base + k ∧ q - base ∉ labels
      · rw [if_pos h1, if_pos ⟨h1.1, by omega, h1.2.2⟩]
      · rw [if_neg h1, if_neg]
        rintro ⟨a, b, c⟩
        by_cases e : q = base + k
        · apply c; rw [e, Nat.add_sub_cancel_left]; exact hm
        · exact h1 ⟨a, by omega, c⟩
    · rw [if_pos hm, rd_vec (by omega), Exec.bind_ok, wr_tab _ _ (by omega)]
      congr 1
      apply tab_congr
      intro q _
      by_cases e : q = base + k
      · subst e
        rw [upd_self, if_pos ⟨by omega, by omega, by rw [Nat.add_sub_cancel_left]; exact hm⟩,
          Nat.add_sub_cancel_left]
      · rw [upd_ne _ _ e]
        by_cases h1 : base ≤ q ∧ q < base + k ∧ q - base ∉ labels
        · rw [if_pos h1, if_pos ⟨h1.1, by omega, h1.2.2⟩]
        · rw [if_neg h1, if_neg]
          rintro ⟨a, b, c⟩
          exact h1 ⟨a, by omega, c⟩

/-- The copy of the one-hot vectors of one row. -/
theorem copyLabels_ok [LinearOrder α] [Zero α] [One α] {rs : List (List α)} {L base off : Nat}
    {labels : List Nat} {row : List α} (f : Nat → α) (hrow : row ∈ rs) (hl : ∀ l ∈ labels, l < row.length)
    (hL : base + off + (labels.map fun l => (valuesOf rs l).card).sum ≤ L) :
    ∃ o, copyLabels labels (labels.map fun l => ((valuesOf rs l).sort (· ≤ ·)).zipIdx) base off row (tab L f)
      = .ok (tab L (overlay f (base + off) (labelBlocks rs labels row)), o) := by
  unfold copyLabels
  have key := forUp_returns (n := labels.length) (s := (tab L f, off)) (body := fun i st => do
    let m ← rd (labels.map fun l => ((valuesOf rs l).sort (· ≤ ·)).zipIdx) i
    let l ← rd labels i
    let v ← rd row l
    let hot ← mapAt m v
    let ret ← forUp m.length st.1 fun col ret =>
      wr ret (base + st.2 + col) (if col = hot then 1 else 0)
    .ok (ret, st.2 + m.length))
    (fun k s => s = (tab L (overlay f (base + off) (labelBlocks rs (labels.take k) row)),
      off + (labelBlocks rs (labels.take k) row).length)) ?_ ?_
  · obtain ⟨s, h1, h2⟩ := key
    rw [List.take_length] at h2
    exact ⟨_, by rw [h1, h2]⟩
  · rw [List.take_zero]
    congr 1
    apply tab_congr
    intro q _
    unfold overlay
    rw [if_neg]
    simp [labelBlocks]
  · rintro k s hk rfl
    refine ⟨_, ?_, rfl⟩
    obtain ⟨l, hlk⟩ : ∃ l, labels[k]? = some l := ⟨_, List.getElem?_eq_getElem hk⟩
    have hmem := List.mem_of_getElem? hlk
    have hmap : (labels.map fun l => ((valuesOf rs l).sort (· ≤ ·)).zipIdx)[k]?
        = some ((valuesOf rs l).sort (· ≤ ·)).zipIdx := by
      rw [List.getElem?_map, hlk]; rfl
    have hv : row.getD l 0 ∈ valuesOf rs l := by
      unfold valuesOf
      rw [List.mem_toFinset]
      exact List.mem_map.mpr ⟨row, hrow, rfl⟩
    have hcard : ((valuesOf rs l).sort (· ≤ ·)).zipIdx.length = (oneHot (valuesOf rs l) (row.getD l 0)).length := by
      rw [List.length_zipIdx, Finset.length_sort, oneHot_length]
    have htake : labels.take (k + 1) = labels.take k ++ [l] := by
      rw [List.take_succ, hlk]; rfl
    have hblocks : labelBlocks rs (labels.take (k + 1)) row
        = labelBlocks rs (labels.take k) row ++ oneHot (valuesOf rs l) (row.getD l 0) := by
      rw [htake]
      unfold labelBlocks
      simp
    have hsum : (labels.map fun l => (valuesOf rs l).card).sum
        = (labelBlocks rs (labels.take (k + 1)) row).length
          + ((labels.drop (k + 1)).map fun l => (valuesOf rs l).card).sum := by
      rw [labelBlocks_length, ← List.sum_append, ← List.map_append, List.take_append_drop]
    rw [hblocks, List.length_append] at hsum
    rw [rd_of_some hmap, Exec.bind_ok, rd_of_some hlk, Exec.bind_ok, rd_vec (hl l hmem), Exec.bind_ok]
    rw [show vec row l = row.getD l 0 from rfl, mapAt_rank hv, Exec.bind_ok, hcard]
    dsimp only
    rw [write_block (off := base + (off + (labelBlocks rs (labels.take k) row).length))
      (oneHot (valuesOf rs l) (row.getD l 0)) _ (by omega)]
    · rw [Exec.bind_ok, hblocks, List.length_append,
        show base + (off + (labelBlocks rs (labels.take k) row).length)
          = base + off + (labelBlocks rs (labels.take k) row).length by omega, overlay_append,
        Nat.add_assoc]
    · intro j hj s
      congr 1
      rw [oneHot_length] at hj
      unfold oneHot
      simp [vec, List.getElem?_range hj]

/-- What the encoding makes of a row: the columns before the number of inputs, with 0 in label columns,
then the one-hot vectors. -/
def encRow [LinearOrder α] [Zero α] [One α] (p : Source α) (r : List α) : List α :=
  (tab (p.featureSize - p.labels.card) fun c => if c ∈ p.labels then 0 else vec r c)
    ++ labelBlocks p.rows (iter p.labels) r

theorem encRow_length [LinearOrder α] [Zero α] [One α] (p : Source α) (r : List α) :
    (encRow p r).length = encSize p := by
  unfold encRow encSize
  rw [List.length_append, labelBlocks_length]
  simp

theorem labels_card_le {p : Source α} (h : p.WellFormed) : p.labels.card ≤ p.featureSize := by
  have : p.labels ⊆ Finset.range p.featureSize := fun l hl => Finset.mem_range.mpr (h.labels l hl)
  simpa using Finset.card_le_card this

theorem encSize_ge [DecidableEq α] [Zero α] {p : Source α} (h : p.WellFormed) (hr : p.rows ≠ []) :
    p.featureSize ≤ encSize p := by
  have hc := labels_card_le h
  have hsum : ∀ ls : List Nat, ls.length ≤ (ls.map fun l => (valuesOf p.rows l).card).sum := by
    intro ls
    induction ls with
    | nil => simp
    | cons l t ih =>
      have : 0 < (valuesOf p.rows l).card := by
        rw [Finset.card_pos]
        obtain ⟨r, hr⟩ := List.exists_mem_of_ne_nil _ hr
        exact ⟨_, List.mem_toFinset.mpr (List.mem_map.mpr ⟨r, hr, rfl⟩)⟩
      rw [List.map_cons, List.sum_cons, List.length_cons]
      omega
  have := hsum (iter p.labels)
  rw [iter_length] at this
  unfold encSize
  omega

/-- `data_to_encoding(ONE_HOT_ENCODING)`: the encoded rows, one after the other. -/
theorem oneHotData_ok [LinearOrder α] [Zero α] [One α] {p : Source α} (h : p.WellFormed) :
    p.oneHotData = .ok (p.rows.map (encRow p)).flatten := by
  have hc := labels_card_le h
  unfold Source.oneHotData
  rw [uniqueMaps_ok h, Exec.bind_ok]
  dsimp only
  have hE : ((iter p.labels).map fun l => ((valuesOf p.rows l).sort (· ≤ ·)).zipIdx).foldl
      (fun e m => e + m.length) (p.featureSize - p.labels.card) = encSize p := by
    rw [foldl_sum, List.map_map]
    unfold encSize
    congr 2
    apply List.map_congr_left
    intro l _
    simp
  rw [hE]
  by_cases hne : p.rows = []
  · rw [hne]
    simp [forUp, forFrom]
  have hfe := encSize_ge h hne
  generalize hEE : encSize p = E at hE hfe
  have key := forUp_returns (n := p.rows.length) (s := List.replicate (E * p.rows.length) (0 : α))
    (body := fun r ret => do
      let row ← rd p.rows r
      let ret ← copyInputs p.featureSize p.labels (r * E) row ret
      let st ← copyLabels (iter p.labels)
        ((iter p.labels).map fun l => ((valuesOf p.rows l).sort (· ≤ ·)).zipIdx) (r * E)
        (p.featureSize - p.labels.card) row ret
      .ok st.1)
    (fun k s => ∃ f, s = tab (E * p.rows.length) f ∧
      (∀ i < k, ∀ c < E, f (i * E + c) = vec (encRow p (p.rows.getD i [])) c) ∧
      ∀ q, k * E ≤ q → f q = 0) ?_ ?_
  · obtain ⟨s, h1, f, rfl, h2, _⟩ := key
    rw [h1]
    congr 1
    have hch := chunks_flatten E p.rows.length (tab (E * p.rows.length) f) (by simp [Nat.mul_comm])
    rw [List.take_of_length_le (by simp [Nat.mul_comm])] at hch
    rw [← hch]
    congr 1
    apply List.ext_getElem?
    intro i
    rw [List.getElem?_map, List.getElem?_map]
    by_cases hi : i < p.rows.length
    · rw [List.getElem?_range hi, List.getElem?_eq_getElem hi]
      simp only [Option.map_some, Option.some.injEq]
      have hb : (i + 1) * E ≤ p.rows.length * E := Nat.mul_le_mul_right _ hi
      rw [Nat.add_one_mul, Nat.mul_comm p.rows.length] at hb
      apply List.ext_getElem?
      intro c
      by_cases hcE : c < E
      · rw [List.getElem?_take_of_lt hcE, List.getElem?_drop, tab_getElem? _ (by omega), h2 i hi c hcE,
          getElem?_vec (by rw [encRow_length]; omega)]
        simp [List.getElem?_eq_getElem hi]
      · rw [List.getElem?_eq_none (by rw [List.length_take]; omega),
          List.getElem?_eq_none (by rw [encRow_length]; omega)]
    · rw [List.getElem?_eq_none (by simpa using hi), List.getElem?_eq_none (by simpa using hi)]
      rfl
  · refine ⟨fun _ => 0, ?_, fun i hi => absurd hi (Nat.not_lt_zero _), fun _ _ => rfl⟩
    apply List.ext_getElem <;> simp [tab]
  · rintro k s hk ⟨f, rfl, h2, h3⟩
    have hr : p.rows[k]? = some (p.rows.getD k []) := by
      simp [List.getElem?_eq_getElem hk]
    have hmem := List.mem_of_getElem? hr
    have hlen := h.long _ hmem
    have hb : (k + 1) * E ≤ p.rows.length * E := Nat.mul_le_mul_right _ hk
    rw [Nat.add_one_mul, Nat.mul_comm p.rows.length] at hb
    have hsz : p.featureSize - p.labels.card + ((iter p.labels).map fun l => (valuesOf p.rows l).card).sum = E := hEE
    obtain ⟨o, ho⟩ := copyLabels_ok (rs := p.rows) (L := E * p.rows.length) (base := k * E)
      (off := p.featureSize - p.labels.card) (labels := iter p.labels) (row := p.rows.getD k [])
      (fun q => if k * E ≤ q ∧ q < k * E + p.featureSize ∧ q - k * E ∉ p.labels
        then vec (p.rows.getD k []) (q - k * E) else f q) hmem
      (fun l hl => by rw [hlen]; exact h.labels l ((mem_iter _ _).mp hl)) (by omega)
    refine ⟨tab (E * p.rows.length) (overlay (fun q => if k * E ≤ q ∧ q < k * E + p.featureSize ∧
        q - k * E ∉ p.labels then vec (p.rows.getD k []) (q - k * E) else f q)
        (k * E + (p.featureSize - p.labels.card)) (labelBlocks p.rows (iter p.labels) (p.rows.getD k []))),
      ?_, _, rfl, ?_, ?_⟩
    · rw [rd_of_some hr, Exec.bind_ok, copyInputs_ok _ (by omega) (by omega), Exec.bind_ok, ho, Exec.bind_ok]
    · intro i hi c hcE
      have hbl : (labelBlocks p.rows (iter p.labels) (p.rows.getD k [])).length
          = ((iter p.labels).map fun l => (valuesOf p.rows l).card).sum := labelBlocks_length _ _ _
      by_cases e : i = k
      · subst e
        unfold overlay encRow
        by_cases h1 : c < p.featureSize - p.labels.card
        · rw [if_neg (by omega), vec_append_left (by simpa using h1), vec_tab _ h1]
          dsimp only
          by_cases hm : c ∈ p.labels
          · rw [if_neg (by rw [Nat.add_sub_cancel_left]; exact fun hh => hh.2.2 hm), if_pos hm,
              h3 _ (by omega)]
          · rw [if_pos ⟨by omega, by omega, by rw [Nat.add_sub_cancel_left]; exact hm⟩, if_neg hm,
              Nat.add_sub_cancel_left]
        · rw [if_pos (by omega), vec_append_right (by simpa using h1)]
          congr 1
          simp only [tab_length]
          omega
      · have hik : (i + 1) * E ≤ k * E := Nat.mul_le_mul_right _ (by omega)
        rw [Nat.add_one_mul] at hik
        unfold overlay
        rw [if_neg (by omega)]
        dsimp only
        rw [if_neg (by omega)]
        exact h2 i (by omega) c hcE
    · intro q hq
      rw [Nat.add_one_mul] at hq
      have hbl : (labelBlocks p.rows (iter p.labels) (p.rows.getD k [])).length
          = ((iter p.labels).map fun l => (valuesOf p.rows l).card).sum := labelBlocks_length _ _ _
      unfold overlay
      rw [if_neg (by omega)]
      dsimp only
      rw [if_neg (by omega)]
      exact h3 q (by omega)

end Verif.Data

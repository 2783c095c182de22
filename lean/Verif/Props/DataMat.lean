import Verif.Props.DataConcat
import Verif.Proofs.NetLayer

/-! C42: datasets built from rows and from sequences. -/

namespace Verif.Props

open Verif.Data Verif.Spec

variable {α : Type}

/-- `w` is the length of a shortest of the lists. -/
def Shortest {β : Type} (ls : List (List β)) (w : Nat) : Prop :=
  (∀ r ∈ ls, w ≤ r.length) ∧ ∃ r ∈ ls, r.length = w

theorem foldl_min {β : Type} (ls : List (List β)) (a : Nat) :
    let w := ls.foldl (fun m v => min v.length m) a
    w ≤ a ∧ (∀ r ∈ ls, w ≤ r.length) ∧ (w = a ∨ ∃ r ∈ ls, r.length = w) := by
  induction ls generalizing a with
  | nil => simp
  | cons x xs ih =>
    intro w
    obtain ⟨h1, h2, h3⟩ := ih (min x.length a)
    change w ≤ _ at h1
    refine ⟨le_trans h1 (min_le_right _ _), ?_, ?_⟩
    · intro r hr
      rcases List.mem_cons.mp hr with rfl | hr
      · exact le_trans h1 (min_le_left _ _)
      · exact h2 r hr
    · rcases h3 with h3 | ⟨r, hr, h3⟩
      · change w = _ at h3
        rcases le_total x.length a with hh | hh
        · right; exact ⟨x, by simp, by rw [h3, min_eq_left hh]⟩
        · left; rw [h3, min_eq_right hh]
      · exact .inr ⟨r, by simp [hr], h3⟩

theorem foldl_append_map {β γ : Type} (f : β → List γ) (ls : List β) (a : List γ) :
    ls.foldl (fun d v => d ++ f v) a = a ++ (ls.map f).flatten := by
  induction ls generalizing a with
  | nil => simp
  | cons x xs ih => simp [ih]

theorem ofMat_width [Zero α] (rs : List (List α)) (hne : rs ≠ []) (ss : Nat) (labels : Finset Nat) :
    Shortest rs (ofMat rs ss labels).featureSize := by
  rcases rs with _ | ⟨r, t⟩
  · exact absurd rfl hne
  · obtain ⟨h1, h2, h3⟩ := foldl_min (r :: t) r.length
    refine ⟨h2, ?_⟩
    rcases h3 with h3 | h3
    · exact ⟨r, by simp, h3.symm⟩
    · exact h3

/-- The stored rows of a dataset built from a matrix. -/
theorem ofMat_data [Zero α] (rs : List (List α)) (ss : Nat) (labels : Finset Nat) :
    let d := ofMat rs ss labels
    (∀ r ∈ rs, d.featureSize ≤ r.length) ∧ rs.length / max d.sequenceSize 1 * d.sequenceSize ≤ rs.length ∧
    d.data = ((rs.map (List.take d.featureSize)).take
      (rs.length / max d.sequenceSize 1 * d.sequenceSize)).flatten ∧
    d.data.length = rs.length / max d.sequenceSize 1 * d.sequenceSize * d.featureSize := by
  intro d
  have hw : ∀ r ∈ rs, d.featureSize ≤ r.length := by
    intro r hr
    exact (ofMat_width rs (List.ne_nil_of_mem hr) ss labels).1 r hr
  have hq : rs.length / max d.sequenceSize 1 * d.sequenceSize ≤ rs.length := by
    calc _ ≤ rs.length / max d.sequenceSize 1 * max d.sequenceSize 1 := Nat.mul_le_mul_left _ (le_max_left _ _)
      _ ≤ _ := Nat.div_mul_le_self _ _
  have hL : ∀ r ∈ rs.map (List.take d.featureSize), r.length = d.featureSize := by
    intro r hr
    obtain ⟨x, hx, rfl⟩ := List.mem_map.mp hr
    rw [List.length_take]
    have := hw x hx
    omega
  have hflat : (if d.featureSize ≠ 0 then rs.foldl (fun e v => e ++ v.take d.featureSize) [] else [])
      = (rs.map (List.take d.featureSize)).flatten := by
    split
    · rw [foldl_append_map]; rfl
    · rename_i h
      have h0 : d.featureSize = 0 := not_not.mp h
      have := length_flatten_rows hL
      rw [h0, Nat.mul_zero, List.length_eq_zero_iff] at this
      rw [h0, this]
  have hdata : d.data = resize (if d.featureSize ≠ 0 then
      rs.foldl (fun e v => e ++ v.take d.featureSize) [] else [])
      (rs.length / max d.sequenceSize 1 * d.sequenceSize * d.featureSize) := rfl
  have hlen : (rs.map (List.take d.featureSize)).flatten.length = rs.length * d.featureSize := by
    rw [length_flatten_rows hL, List.length_map]
  have hle : rs.length / max d.sequenceSize 1 * d.sequenceSize * d.featureSize
      ≤ (rs.map (List.take d.featureSize)).flatten.length := by
    rw [hlen]; exact Nat.mul_le_mul_right _ hq
  refine ⟨hw, hq, ?_, ?_⟩
  · rw [hdata, hflat, resize_take hle, take_flatten_rows hL _ (by rw [List.length_map]; exact hq)]
  · rw [hdata, hflat, resize_take hle, List.length_take]
    omega

/-- **C42** (rows that make up whole sequences): the dataset is consistent, its rows are the given rows
cut to the length of a shortest one, and it has as many rows as were given.  Missing: a number of rows
that is not a multiple of the sequence size, see `C42_rows_refuted`. -/
theorem C42_rows_partial [Zero α] (rs : List (List α)) (ss : Nat) (labels : Finset Nat) (hne : rs ≠ [])
    (hss : 0 < ss) (hdvd : min ss rs.length ∣ rs.length) :
    let d := ofMat rs ss labels
    Consistent d ∧ Shortest rs d.featureSize ∧ rows d = rs.map (List.take d.featureSize) ∧
      d.size = rs.length ∧ d.sequenceSize = min ss rs.length ∧
      ∀ i, i ∈ d.labelsIdx ↔ i ∈ labels ∧ i < d.featureSize := by
  intro d
  obtain ⟨h1, h2, h3, h4⟩ := ofMat_data rs ss labels
  have hk : 0 < min ss rs.length := lt_min hss (List.length_pos_iff.mpr hne)
  have hseq : (ofMat rs ss labels).sequenceSize = min ss rs.length := rfl
  have hq : rs.length / max (ofMat rs ss labels).sequenceSize 1 * (ofMat rs ss labels).sequenceSize = rs.length := by
    rw [hseq, max_eq_left (by omega), Nat.div_mul_cancel hdvd]
  rw [hq] at h3 h4
  rw [← List.length_map (f := List.take (ofMat rs ss labels).featureSize) (as := rs), List.take_length] at h3
  have hL : ∀ r ∈ rs.map (List.take d.featureSize), r.length = d.featureSize := by
    intro r hr
    obtain ⟨x, hx, rfl⟩ := List.mem_map.mp hr
    rw [List.length_take]
    have := h1 x hx
    change min d.featureSize _ = _
    change d.featureSize ≤ _ at this
    omega
  have hlab : ∀ i, i ∈ d.labelsIdx ↔ i ∈ labels ∧ i < d.featureSize := fun i => mem_keepLabels
  refine ⟨⟨h4, ?_, ?_, fun i hi => ((hlab i).mp hi).2, fun i => mem_inputsOf⟩, ofMat_width rs hne ss labels, ?_, rfl,
    rfl, hlab⟩
  · rw [h4]
    change rs.length / max (ofMat rs ss labels).sequenceSize 1 * (ofMat rs ss labels).sequenceSize * _ = _
    rw [hq]
    rfl
  · exact hq.symm
  · have := chunks_of_flatten d.featureSize _ hL rs.length (by simp)
    rw [← List.length_map (f := List.take d.featureSize) (as := rs), List.take_length] at this
    rw [← this]
    unfold rows row
    rw [show d.size = (rs.map (List.take d.featureSize)).length by rw [List.length_map]; rfl]
    have e : d.data = (rs.map (List.take d.featureSize)).flatten := h3
    rw [e]

/-- What the constructor does in general: `size()` is the number of rows given, but only the rows of
whole sequences are stored; the others cannot be read. -/
theorem C42_rows_actual [Zero α] (rs : List (List α)) (ss : Nat) (labels : Finset Nat) :
    let d := ofMat rs ss labels
    let kept := rs.length / max d.sequenceSize 1 * d.sequenceSize
    d.size = rs.length ∧ kept ≤ rs.length ∧
      (∀ i r, i < kept → rs[i]? = some r → d.entry i = .ok (r.take d.featureSize)) ∧
      (0 < d.featureSize → ∀ i, kept ≤ i → i < d.size → d.entry i = .ub) := by
  intro d kept
  obtain ⟨h1, h2, h3, h4⟩ := ofMat_data rs ss labels
  change ∀ r ∈ rs, d.featureSize ≤ r.length at h1
  change kept ≤ rs.length at h2
  change d.data = ((rs.map (List.take d.featureSize)).take kept).flatten at h3
  change d.data.length = kept * d.featureSize at h4
  have hL : ∀ r ∈ (rs.map (List.take d.featureSize)).take kept, r.length = d.featureSize := by
    intro r hr
    obtain ⟨x, hx, rfl⟩ := List.mem_map.mp (List.mem_of_mem_take hr)
    rw [List.length_take]
    have := h1 x hx
    omega
  refine ⟨rfl, h2, ?_, ?_⟩
  · intro i r hi hr
    have hc := chunks_of_flatten d.featureSize _ hL kept (by simp [h2])
    rw [← h3] at hc
    have := congrArg (fun l => l[i]?) hc
    rw [List.getElem?_map, List.getElem?_range hi, List.getElem?_take_of_lt hi, List.getElem?_take_of_lt hi,
      List.getElem?_map, hr] at this
    simp only [Option.map_some, Option.some.injEq] at this
    have hb : (i + 1) * d.featureSize ≤ kept * d.featureSize := Nat.mul_le_mul_right _ hi
    rw [Nat.add_one_mul] at hb
    unfold Dataset.entry slice
    rw [if_neg (by change ¬ i ≥ rs.length; omega), if_pos (by omega), ← this]
    congr 2
    omega
  · intro hf i hi hi'
    have hb : kept * d.featureSize ≤ i * d.featureSize := Nat.mul_le_mul_right _ hi
    unfold Dataset.entry slice
    rw [if_neg (by change ¬ i ≥ d.size; omega), if_neg (by omega)]

/-- **C42 is false** for three rows in sequences of two: `size()` is 3 but the third row is not stored,
and `entry(2)` reads outside the data. -/
theorem C42_rows_refuted :
    (ofMat [[1], [2], [(3 : ℤ)]] 2 ∅).size = 3 ∧ (ofMat [[1], [2], [(3 : ℤ)]] 2 ∅).data = [1, 2] ∧
      (ofMat [[1], [2], [(3 : ℤ)]] 2 ∅).entry 2 = .ub ∧
      ¬ Consistent (ofMat [[1], [2], [(3 : ℤ)]] 2 ∅) := by
  refine ⟨rfl, rfl, rfl, fun h => ?_⟩
  have := h.data
  revert this
  decide

theorem cubSizes_spec (cube : List (List (List α))) (m0 : List (List α)) (t : List (List (List α)))
    (hc : cube = m0 :: t) (hm : m0 ≠ []) :
    Shortest cube (cubSizes cube).1 ∧ Shortest cube.flatten (cubSizes cube).2 := by
  rcases m0 with _ | ⟨v0, m0⟩
  · exact absurd rfl hm
  have key : ∀ (c : List (List (List α))) (a b : Nat),
      c.foldl (fun s m => (min m.length s.1, m.foldl (fun f v => min v.length f) s.2)) (a, b)
        = (c.foldl (fun s m => min m.length s) a, c.flatten.foldl (fun f v => min v.length f) b) := by
    intro c
    induction c with
    | nil => intro a b; rfl
    | cons x xs ih =>
      intro a b
      rw [List.foldl_cons, ih, List.foldl_cons, List.flatten_cons, List.foldl_append]
  have hs : cubSizes cube = (cube.foldl (fun s m => min m.length s) (v0 :: m0).length,
      cube.flatten.foldl (fun f v => min v.length f) v0.length) := by
    rw [← key, hc]; rfl
  rw [hs]
  obtain ⟨_, a2, a3⟩ := foldl_min cube (v0 :: m0).length
  obtain ⟨_, b2, b3⟩ := foldl_min cube.flatten v0.length
  refine ⟨⟨a2, ?_⟩, ⟨b2, ?_⟩⟩
  · rcases a3 with a3 | a3
    · exact ⟨v0 :: m0, by rw [hc]; simp, a3.symm⟩
    · exact a3
  · rcases b3 with b3 | b3
    · exact ⟨v0, by rw [hc]; simp, b3.symm⟩
    · exact b3

/-- **C42** (cubes whose first matrix has rows): the dataset is consistent; its rows are, sequence after
sequence, the first rows of that sequence cut to a common length, as many as the shortest sequence has.
Missing: an empty first matrix, see `C42_cube_refuted`. -/
theorem C42_cube_partial [Zero α] (m0 : List (List α)) (t : List (List (List α))) (hm : m0 ≠ [])
    (labels : Finset Nat) :
    ∃ d, ofCub (m0 :: t) labels = .ok d ∧ Consistent d ∧
      Shortest (m0 :: t) d.sequenceSize ∧ Shortest (m0 :: t).flatten d.featureSize ∧
      d.sequenceAmount = (m0 :: t).length ∧
      rows d = ((m0 :: t).map fun m => (m.take d.sequenceSize).map (List.take d.featureSize)).flatten ∧
      ∀ i, i ∈ d.labelsIdx ↔ i ∈ labels ∧ i < d.featureSize := by
  obtain ⟨hs, hf⟩ := cubSizes_spec (m0 :: t) m0 t rfl hm
  generalize hcu : m0 :: t = cube at hs hf
  generalize hss : (cubSizes cube).1 = ss at hs
  generalize hfs : (cubSizes cube).2 = fs at hf
  have hblock : ∀ m ∈ cube, ((m.take ss).map (List.take fs)).length = ss := by
    intro m hm'
    rw [List.length_map, List.length_take]
    have := hs.1 m hm'
    omega
  have hrow : ∀ r ∈ (cube.map fun m => (m.take ss).map (List.take fs)).flatten, r.length = fs := by
    intro r hr
    obtain ⟨b, hb, hr⟩ := List.mem_flatten.mp hr
    obtain ⟨m, hm', rfl⟩ := List.mem_map.mp hb
    obtain ⟨x, hx, rfl⟩ := List.mem_map.mp hr
    rw [List.length_take]
    have := hf.1 x (List.mem_flatten.mpr ⟨m, hm', List.mem_of_mem_take hx⟩)
    omega
  have hnum : (cube.map fun m => (m.take ss).map (List.take fs)).flatten.length = cube.length * ss := by
    rw [length_flatten_rows (fs := ss), List.length_map]
    intro b hb
    obtain ⟨m, hm', rfl⟩ := List.mem_map.mp hb
    exact hblock m hm'
  have hlen : (cube.map fun m => (m.take ss).map (List.take fs)).flatten.flatten.length
      = cube.length * ss * fs := by
    rw [length_flatten_rows hrow, hnum]
  refine ⟨{
    data := (cube.map fun m => (m.take ss).map (List.take fs)).flatten.flatten
    featureSize := fs
    sequenceSize := ss
    datasetSize := cube.length * ss * fs
    featureAmount := cube.length * ss
    sequenceAmount := cube.length
    labelsIdx := keepLabels fs labels
    inputIdx := inputsOf fs (keepLabels fs labels) }, ?_, ?_, hs, hf, rfl, ?_, fun i => mem_keepLabels⟩
  · unfold ofCub
    dsimp only
    rw [hss, hfs]
    have hhead : (cube.headD []).isEmpty = false := by
      rw [← hcu]
      rcases m0 with _ | _
      · exact absurd rfl hm
      · rfl
    rw [if_neg (by rw [hhead]; simp)]
    by_cases hz : ss ≠ 0 ∧ fs ≠ 0
    · rw [if_pos hz]
      have hcol : collect (fun m => collect (fun i => do
          let v ← rd m i
          slice v 0 fs) (List.range ss)) cube
          = .ok (cube.map fun m => (m.take ss).map (List.take fs)) := by
        apply collect_ok
        intro m hm'
        have hl := hs.1 m hm'
        rw [collect_ok (g := fun i => (m.getD i []).take fs)]
        · congr 1
          apply List.ext_getElem?
          intro i
          rw [List.getElem?_map, List.getElem?_map]
          by_cases hi : i < ss
          · rw [List.getElem?_range hi, List.getElem?_take_of_lt hi,
              List.getElem?_eq_getElem (show i < m.length by omega)]
            simp [List.getD, List.getElem?_eq_getElem (show i < m.length by omega)]
          · rw [List.getElem?_eq_none (by simpa using hi), List.getElem?_eq_none (by
              rw [List.length_take]; omega)]
            rfl
        · intro i hi
          have hi : i < ss := by simpa using hi
          have hget : m[i]? = some (m.getD i []) := by
            simp [List.getD, List.getElem?_eq_getElem (show i < m.length by omega)]
          rw [rd_of_some hget, Exec.bind_ok]
          unfold slice
          have := hf.1 (m.getD i []) (List.mem_flatten.mpr ⟨m, hm', List.mem_of_getElem? hget⟩)
          rw [if_pos (by omega)]
          simp
      rw [hcol]
      rfl
    · rw [if_neg hz]
      have : (cube.map fun m => (m.take ss).map (List.take fs)).flatten.flatten = [] := by
        rw [← List.length_eq_zero_iff, hlen]
        by_cases h0 : ss = 0
        · simp [h0]
        · have : fs = 0 := by
            by_contra h1; exact hz ⟨h0, h1⟩
          simp [this]
      rw [this]
      rfl
  · exact ⟨hlen, hlen.symm, rfl, fun i hi => (mem_keepLabels.mp hi).2, fun i => mem_inputsOf⟩
  · have := chunks_of_flatten fs _ hrow (cube.length * ss) (by omega)
    rw [← hnum, List.take_length, hnum] at this
    exact this

/-- **C42 is false** when the first matrix of a cube is empty: the number of sequences is taken for the
sequence size, so two empty sequences make `size()` 4. -/
theorem C42_cube_refuted :
    ∃ d, ofCub ([[], []] : List (List (List ℤ))) ∅ = .ok d ∧ d.size = 4 ∧ d.data = [] :=
  ⟨_, rfl, rfl, rfl⟩

/-- Four rows of different lengths in sequences of two. -/
example : ([[1, 2, 3], [4, 5], [6, 7, 8], [9, 10]] : List (List ℤ)) ≠ [] ∧
    min 2 ([[1, 2, 3], [4, 5], [6, 7, 8], [9, 10]] : List (List ℤ)).length
      ∣ ([[1, 2, 3], [4, 5], [6, 7, 8], [9, 10]] : List (List ℤ)).length := by decide

end Verif.Props

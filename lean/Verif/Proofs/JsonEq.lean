import Verif.Proofs.Json
import Mathlib.Data.Finset.Card

namespace Verif.Js

open Verif.Text Verif.Spec

theorem eqItem_list (ts us : List Json) :
    eqItem (.list ts) (.list us) =
      if ts.length ≠ us.length then .ok false else eqAll (ts.map eqItem) us := by
  rw [eqItem]
  congr 2
  simp

theorem eqItem_dict (m m' : List (Key × Json)) :
    eqItem (.dict m) (.dict m') =
      if m.length ≠ m'.length then .ok false
      else if m'.any fun q => !(m.map Prod.fst).contains q.1 then .ok false
      else eqFields (m.map fun p => (p.1, eqItem p.2)) m' := by
  rw [eqItem]
  congr 3
  exact List.attach_map_val (l := m) (f := fun p : Key × Json => (p.1, eqItem p.2))

theorem mapFind_mem {α : Type} {m : List (Key × α)} {k : Key} {v : α} (h : mapFind m k = some v) :
    (k, v) ∈ m := by
  induction m with
  | nil => cases h
  | cons p m ih =>
    obtain ⟨k', v'⟩ := p
    unfold mapFind at h
    split at h
    · rename_i e
      cases h
      simp [e]
    · simp [ih h]

theorem mapFind_none {α : Type} {m : List (Key × α)} {k : Key} : mapFind m k = .none ↔ k ∉ m.map Prod.fst := by
  induction m with
  | nil => simp [mapFind]
  | cons p m ih =>
    obtain ⟨k', v'⟩ := p
    unfold mapFind
    split
    · rename_i e
      simp [e]
    · rename_i e
      rw [ih]
      simp only [List.map_cons, List.mem_cons, not_or]
      exact ⟨fun h => ⟨fun h' => e h'.symm, h⟩, fun h => h.2⟩

theorem mapFind_some {α : Type} {m : List (Key × α)} {k : Key} (h : k ∈ m.map Prod.fst) :
    ∃ v, mapFind m k = some v := by
  cases e : mapFind m k with
  | none => exact absurd h (mapFind_none.mp e)
  | some v => exact ⟨v, rfl⟩

theorem mapFind_of_mem {α : Type} {m : List (Key × α)} (hn : (m.map Prod.fst).Nodup) {k : Key} {v : α}
    (h : (k, v) ∈ m) : mapFind m k = some v := by
  induction m with
  | nil => cases h
  | cons p m ih =>
    obtain ⟨k', v'⟩ := p
    rw [List.map_cons, List.nodup_cons] at hn
    unfold mapFind
    rcases List.mem_cons.mp h with e | h
    · cases e
      rw [if_pos rfl]
    · rw [if_neg, ih hn.2 h]
      rintro rfl
      exact hn.1 (List.mem_map.mpr ⟨_, h, rfl⟩)

theorem eqAll_spec {ts us : List Json} (hl : ts.length = us.length)
    (h : ∀ (i : Nat) (t u : Json), ts[i]? = some t → us[i]? = some u →
      ∃ b, eqItem t u = .ok b ∧ (b = true ↔ SameText t u)) :
    ∃ b, eqAll (ts.map eqItem) us = .ok b ∧
      (b = true ↔ ∀ (i : Nat) (t u : Json), ts[i]? = some t → us[i]? = some u → SameText t u) := by
  induction ts generalizing us with
  | nil => exact ⟨true, rfl, by simp⟩
  | cons t ts ih =>
    cases us with
    | nil => simp at hl
    | cons u us =>
      obtain ⟨b, hb, hb'⟩ := h 0 t u rfl rfl
      obtain ⟨b2, hb2, hb2'⟩ := ih (us := us) (by simpa using hl) fun i t' u' h1 h2 => h (i + 1) t' u' h1 h2
      rw [List.map_cons]
      unfold eqAll
      rw [hb]
      simp only [Exec.bind_ok]
      cases b with
      | false =>
        refine ⟨false, by simp, ?_⟩
        simp only [Bool.false_eq_true, false_iff]
        intro hall
        exact Bool.false_ne_true (hb'.mpr (hall 0 t u rfl rfl))
      | true =>
        refine ⟨b2, by simpa using hb2, ?_⟩
        rw [hb2']
        constructor
        · intro hall i t' u' h1 h2
          cases i with
          | zero =>
            cases h1
            cases h2
            exact hb'.mp rfl
          | succ i => exact hall i t' u' h1 h2
        · intro hall i t' u' h1 h2
          exact hall (i + 1) t' u' h1 h2

theorem eqFields_spec {m m' : List (Key × Json)} (hk : ∀ k ∈ m.map Prod.fst, k ∈ m'.map Prod.fst)
    (h : ∀ k t u, (k, t) ∈ m → mapFind m' k = some u → ∃ b, eqItem t u = .ok b ∧ (b = true ↔ SameText t u)) :
    ∃ b, eqFields (m.map fun p => (p.1, eqItem p.2)) m' = .ok b ∧
      (b = true ↔ ∀ k t u, (k, t) ∈ m → mapFind m' k = some u → SameText t u) := by
  induction m with
  | nil => exact ⟨true, rfl, by simp⟩
  | cons p m ih =>
    obtain ⟨k, t⟩ := p
    obtain ⟨u, hu⟩ := mapFind_some (hk k (by simp))
    obtain ⟨b, hb, hb'⟩ := h k t u (by simp) hu
    obtain ⟨b2, hb2, hb2'⟩ := ih (fun k' h' => hk k' (by
      rw [List.map_cons]; exact List.mem_cons_of_mem _ h'))
      fun k' t' u' h1 h2 => h k' t' u' (by simp [h1]) h2
    rw [List.map_cons]
    unfold eqFields
    dsimp only
    rw [hu]
    dsimp only
    rw [hb]
    simp only [Exec.bind_ok]
    cases b with
    | false =>
      refine ⟨false, by simp, ?_⟩
      simp only [Bool.false_eq_true, false_iff]
      intro hall
      exact Bool.false_ne_true (hb'.mpr (hall k t u (by simp) hu))
    | true =>
      refine ⟨b2, by simpa using hb2, ?_⟩
      rw [hb2']
      constructor
      · intro hall k' t' u' h1 h2
        rcases List.mem_cons.mp h1 with e | h1
        · cases e
          rw [hu] at h2
          cases h2
          exact hb'.mp rfl
        · exact hall k' t' u' h1 h2
      · intro hall k' t' u' h1 h2
        exact hall k' t' u' (by simp [h1]) h2

/-- Two key lists of the same length without repetitions, one contained in the other, have the same
elements. -/
theorem same_keys {a b : List Key} (ha : a.Nodup) (hb : b.Nodup) (hl : a.length = b.length)
    (h : ∀ k ∈ b, k ∈ a) : ∀ k ∈ a, k ∈ b := by
  classical
  have h1 : b.toFinset ⊆ a.toFinset := fun k hk => by
    rw [List.mem_toFinset] at *
    exact h k hk
  have h2 : b.toFinset = a.toFinset := Finset.eq_of_subset_of_card_le h1 (by
    rw [List.toFinset_card_of_nodup ha, List.toFinset_card_of_nodup hb, hl])
  intro k hk
  have : k ∈ b.toFinset := by rw [h2, List.mem_toFinset]; exact hk
  exact List.mem_toFinset.mp this

theorem eqItem_spec {t : Json} (ht : Full t) : ∀ {u : Json}, Full u →
    ∃ b, eqItem t u = .ok b ∧ (b = true ↔ SameText t u) := by
  induction ht with
  | @leaf v ty =>
    intro u hu
    cases hu with
    | @leaf w ty' =>
      refine ⟨v == w, by rw [eqItem], ?_⟩
      rw [beq_iff_eq]
      constructor
      · rintro rfl
        exact .leaf
      · intro h
        cases h
        rfl
    | list _ => exact ⟨false, by rw [eqItem], by simp; intro h; cases h⟩
    | dict _ _ => exact ⟨false, by rw [eqItem], by simp; intro h; cases h⟩
  | @list ts _ ih =>
    intro u hu
    cases hu with
    | leaf => exact ⟨false, by rw [eqItem], by simp; intro h; cases h⟩
    | dict _ _ => exact ⟨false, by rw [eqItem], by simp; intro h; cases h⟩
    | @list us hus =>
      rw [eqItem_list]
      by_cases hl : ts.length = us.length
      · rw [if_neg (by simpa using hl)]
        obtain ⟨b, hb, hb'⟩ := eqAll_spec hl fun i t u h1 h2 =>
          ih t (List.mem_of_getElem? h1) (hus u (List.mem_of_getElem? h2))
        refine ⟨b, hb, hb'.trans ⟨fun h => .list hl h, fun h => ?_⟩⟩
        cases h
        assumption
      · rw [if_pos hl]
        refine ⟨false, rfl, by simp; intro h; cases h; contradiction⟩
  | @dict m hn _ ih =>
    intro u hu
    cases hu with
    | leaf => exact ⟨false, by rw [eqItem], by simp; intro h; cases h⟩
    | list _ => exact ⟨false, by rw [eqItem], by simp; intro h; cases h⟩
    | @dict m' hn' hm' =>
      rw [eqItem_dict]
      by_cases hl : m.length = m'.length
      · rw [if_neg (by simpa using hl)]
        by_cases hk : ∀ k ∈ m'.map Prod.fst, k ∈ m.map Prod.fst
        · rw [if_neg]
          · have hk2 := same_keys hn hn' (by simpa using hl) hk
            obtain ⟨b, hb, hb'⟩ := eqFields_spec hk2 fun k t u h1 h2 =>
              ih (k, t) h1 (hm' (k, u) (mapFind_mem h2))
            refine ⟨b, hb, hb'.trans ⟨fun h => .dict (fun k => ⟨hk2 k, hk k⟩) fun k t u h1 h2 =>
              h k t u (mapFind_mem h1) h2, fun h => ?_⟩⟩
            cases h with
            | dict _ h =>
              intro k t u h1 h2
              exact h k t u (mapFind_of_mem hn h1) h2
          · simp only [List.any_eq_true, not_exists, not_and, Bool.not_eq_true', Bool.not_eq_false]
            intro q hq
            rw [List.contains_iff_mem]
            exact hk q.1 (List.mem_map.mpr ⟨q, hq, rfl⟩)
        · rw [if_pos]
          · refine ⟨false, rfl, by simp; intro h; cases h with | dict h1 h2 => exact hk fun k h => (h1 k).mpr h⟩
          · push Not at hk
            obtain ⟨k, h1, h2⟩ := hk
            obtain ⟨q, hq, rfl⟩ := List.mem_map.mp h1
            rw [List.any_eq_true]
            refine ⟨q, hq, ?_⟩
            simp only [Bool.not_eq_true']
            rw [← Bool.not_eq_true, List.contains_iff_mem]
            exact h2
      · rw [if_pos hl]
        refine ⟨false, rfl, ?_⟩
        simp only [Bool.false_eq_true, false_iff]
        intro h
        cases h with
        | dict h1 _ =>
          classical
          refine hl ?_
          have e : (m.map Prod.fst).toFinset = (m'.map Prod.fst).toFinset := by
            ext k
            rw [List.mem_toFinset, List.mem_toFinset]
            exact h1 k
          have := congrArg Finset.card e
          rw [List.toFinset_card_of_nodup hn, List.toFinset_card_of_nodup hn'] at this
          simpa using this

theorem sameText_refl {t : Json} (h : Full t) : SameText t t := by
  induction h with
  | leaf => exact .leaf
  | list _ ih =>
    refine .list rfl fun i t u h1 h2 => ?_
    rw [h1] at h2
    cases h2
    exact ih t (List.mem_of_getElem? h1)
  | dict _ _ ih =>
    refine .dict (fun _ => Iff.rfl) fun k t u h1 h2 => ?_
    rw [h1] at h2
    cases h2
    exact ih (k, t) (mapFind_mem h1)

theorem sorted_nodup {α : Type} {m : List (Key × α)} (h : KeysSorted m) : (m.map Prod.fst).Nodup := by
  rw [List.Nodup, List.pairwise_map]
  refine List.Pairwise.imp ?_ h
  intro p q hpq e
  rw [e, keyLt_irrefl] at hpq
  cases hpq

theorem plain_full {t : Json} (h : Plain t) : Full t := by
  induction h with
  | text _ => exact .leaf
  | scalar _ _ => exact .leaf
  | list _ _ _ ih => exact .list ih
  | dict _ _ _ hs ih => exact .dict (sorted_nodup hs) ih

end Verif.Js

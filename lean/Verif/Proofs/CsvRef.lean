import Mathlib.Data.List.Forall2
import Verif.Proofs.Csv
import Verif.Spec.CsvRef

/-
Rows and fields that refer to the types of CSV objects behave like values as long as no types change.
-/

namespace Verif.Csv

open Verif.Text Verif.Js Verif.Spec

/-- The first computation does what the second one does, except that it may have undefined behaviour if `A` does
not hold. -/
def Sim {α β : Type} (A : Prop) (R : α → β → Prop) : Exec α → Exec β → Prop
  | .ok a, .ok b => R a b
  | .throw m, .throw m' => m = m'
  | .ub, .ub => True
  | .ub, _ => ¬ A
  | _, _ => False

theorem Sim.ubLeft {α β : Type} {A : Prop} {R : α → β → Prop} (h : ¬ A) (e : Exec β) : Sim A R (.ub : Exec α) e := by
  cases e
  · exact h
  · exact h
  · trivial

theorem Sim.bind {α β γ δ : Type} {A : Prop} {R : α → β → Prop} {S : γ → δ → Prop} {e1 : Exec α} {e2 : Exec β}
    {f : α → Exec γ} {g : β → Exec δ} (h : Sim A R e1 e2) (hf : ∀ a b, R a b → Sim A S (f a) (g b)) :
    Sim A S (e1 >>= f) (e2 >>= g) := by
  cases e1 <;> cases e2 <;> first | exact hf _ _ h | exact h | exact Sim.ubLeft h _ | exact h.elim | trivial

theorem Sim.left {α β γ : Type} {A : Prop} {S : γ → β → Prop} {e1 : Exec α} {e2 : Exec β} {f : α → Exec γ} {a : α}
    (h : e1 = .ok a ∨ (e1 = .ub ∧ ¬ A)) (hf : Sim A S (f a) e2) : Sim A S (e1 >>= f) e2 := by
  rcases h with h | ⟨h, hA⟩
  · rw [h]; exact hf
  · rw [h]; exact Sim.ubLeft hA _

/-- No CSV object has been destroyed. -/
def World.AllAlive (w : World) : Prop := ∀ c < w.csvs.length, ∃ h, w.csvs[c]? = some (some h)

/-- If the reference is to a live object, it sees these types. -/
def World.Sees (w : World) (ref : Nat) (ts : List Ty) : Prop :=
  ref < w.csvs.length ∧ ∀ h, w.csvs[ref]? = some (some h) → h.csv.types = ts

/-- If the reference is to a live object, it sees this type. -/
def World.SeesAt (w : World) (ref pos : Nat) (t : Ty) : Prop :=
  ref < w.csvs.length ∧ ∀ h, w.csvs[ref]? = some (some h) → h.csv.types[pos]? = some t

/-- The types of the object are settled. -/
structure Fine (c : Csv) : Prop where
  len : c.types.length = c.cols
  auto : Ty.auto ∉ c.types
  cols : c.cols ≠ 0

/-- The world of references shows the same as the world of values. -/
structure Rel (w : World) (v : Values) : Prop where
  csvs : v.csvs = w.csvs.map (Option.map Handle.csv)
  fine : ∀ (c : Nat) (h : Handle), w.csvs[c]? = some (some h) → Fine h.csv ∧ w.Sees h.headRef h.csv.types ∧ w.Sees h.cacheRef h.csv.types
  rows : List.Forall₂ (fun (o : RowObj) (p : Row × List Ty) => o.row = p.1 ∧ w.Sees o.ref p.2) w.rows v.rows
  fields : List.Forall₂ (fun (o : FieldObj) (p : List Char × Ty × Nat) =>
    o.text = p.1 ∧ o.idx = p.2.2 ∧ w.SeesAt o.ref o.pos p.2.1) w.fields v.fields

/-- The second world has the same types, or fewer live objects, or more objects. -/
def World.Grow (w w' : World) : Prop :=
  w.csvs.length ≤ w'.csvs.length ∧ ∀ ref < w.csvs.length, ∀ h', w'.csvs[ref]? = some (some h') →
    ∃ h, w.csvs[ref]? = some (some h) ∧ h.csv.types = h'.csv.types

theorem World.Sees.mono {w w' : World} (hg : w.Grow w') {ref : Nat} {ts : List Ty} (h : w.Sees ref ts) :
    w'.Sees ref ts :=
  ⟨Nat.lt_of_lt_of_le h.1 hg.1, fun h' hh => by
    obtain ⟨k, h1, h2⟩ := hg.2 _ h.1 h' hh
    rw [← h2]; exact h.2 k h1⟩

theorem World.SeesAt.mono {w w' : World} (hg : w.Grow w') {ref pos : Nat} {t : Ty} (h : w.SeesAt ref pos t) :
    w'.SeesAt ref pos t :=
  ⟨Nat.lt_of_lt_of_le h.1 hg.1, fun h' hh => by
    obtain ⟨k, h1, h2⟩ := hg.2 _ h.1 h' hh
    rw [← h2]; exact h.2 k h1⟩

theorem handle_ok {w : World} {c : Nat} {h : Handle} (hc : w.handle c = .ok h) : w.csvs[c]? = some (some h) := by
  unfold World.handle at hc
  split at hc
  · cases hc; assumption
  · cases hc

theorem handle_of {w : World} {c : Nat} {h : Handle} (hc : w.csvs[c]? = some (some h)) : w.handle c = .ok h := by
  unfold World.handle; rw [hc]

theorem handle_cases (w : World) (c : Nat) :
    (∃ h, w.handle c = .ok h) ∨ (w.handle c = .ub ∧ ¬ (c < w.csvs.length ∧ w.AllAlive)) := by
  unfold World.handle
  split
  · exact Or.inl ⟨_, rfl⟩
  · rename_i hn
    exact Or.inr ⟨rfl, fun hA => by
      obtain ⟨h, hh⟩ := hA.2 c hA.1
      exact hn h hh⟩

theorem Rel.csv {w : World} {v : Values} (hr : Rel w v) (c : Nat) :
    Sim w.AllAlive (fun (h : Handle) (d : Csv) => h.csv = d ∧ w.csvs[c]? = some (some h) ∧ v.csvs[c]? = some (some d))
      (w.handle c) (v.csv c) := by
  unfold World.handle Values.csv
  rw [hr.csvs, List.getElem?_map]
  rcases hc : w.csvs[c]? with _ | _ | h
  · trivial
  · trivial
  · exact ⟨rfl, rfl, rfl⟩

theorem types_of {w : World} {ref : Nat} {ts : List Ty} (h : w.Sees ref ts) :
    w.types ref = .ok ts ∨ (w.types ref = .ub ∧ ¬ w.AllAlive) := by
  rcases handle_cases w ref with ⟨k, hk⟩ | ⟨hk, hn⟩
  · left
    unfold World.types
    rw [hk, ← h.2 k (handle_ok hk)]; rfl
  · right
    unfold World.types
    rw [hk]
    exact ⟨rfl, fun hA => hn ⟨h.1, hA⟩⟩

theorem set_self {α : Type} : ∀ {l : List α} {i : Nat} {a : α}, l[i]? = some a → l.set i a = l
  | [], _, _, h => by simp at h
  | x :: l, 0, a, h => by simp at h; simp [h]
  | x :: l, i + 1, a, h => by
    rw [List.set_cons_succ, set_self (by simpa using h)]

theorem setTypes_same {w : World} {ref : Nat} {ts : List Ty} (h : w.Sees ref ts) :
    w.setTypes ref ts = .ok w ∨ (w.setTypes ref ts = .ub ∧ ¬ w.AllAlive) := by
  rcases handle_cases w ref with ⟨k, hk⟩ | ⟨hk, hn⟩
  · left
    unfold World.setTypes
    rw [hk]
    have h2 := h.2 k (handle_ok hk)
    have : ({ k with csv := { k.csv with types := ts } } : Handle) = k := by rw [← h2]
    rw [Exec.bind_ok, this, set_self (handle_ok hk)]
  · right
    unfold World.setTypes
    rw [hk]
    exact ⟨rfl, fun hA => hn ⟨h.1, hA⟩⟩

theorem forall₂_rd {α β : Type} {R : α → β → Prop} {A : Prop} {l : List α} {m : List β} (h : List.Forall₂ R l m)
    (i : Nat) : Sim A (fun a b => R a b ∧ l[i]? = some a ∧ m[i]? = some b) (rd l i) (rd m i) := by
  induction h generalizing i with
  | nil => simp [rd, Sim]
  | cons hab _ ih =>
    cases i with
    | zero => exact ⟨hab, rfl, rfl⟩
    | succ i => simpa [rd] using ih i

theorem forall₂_set {α β : Type} {R : α → β → Prop} {l : List α} {m : List β} (h : List.Forall₂ R l m)
    (i : Nat) {a : α} {b : β} (hab : R a b) : List.Forall₂ R (l.set i a) (m.set i b) := by
  induction h generalizing i with
  | nil => simp
  | cons h1 h2 ih =>
    cases i with
    | zero => exact .cons hab h2
    | succ i => exact .cons h1 (ih i)

theorem forall₂_snoc {α β : Type} {R : α → β → Prop} {l : List α} {m : List β} (h : List.Forall₂ R l m)
    {a : α} {b : β} (hab : R a b) : List.Forall₂ R (l ++ [a]) (m ++ [b]) :=
  List.rel_append h (.cons hab .nil)

/-- Objects that are not CSV objects can be added. -/
theorem Rel.addRow {w : World} {v : Values} (hr : Rel w v) {o : RowObj} {p : Row × List Ty} (h1 : o.row = p.1)
    (h2 : w.Sees o.ref p.2) : Rel { w with rows := w.rows ++ [o] } { v with rows := v.rows ++ [p] } :=
  ⟨hr.csvs, hr.fine, forall₂_snoc hr.rows ⟨h1, h2⟩, hr.fields⟩

theorem Rel.addField {w : World} {v : Values} (hr : Rel w v) {o : FieldObj} {p : List Char × Ty × Nat}
    (h1 : o.text = p.1) (h2 : o.idx = p.2.2) (h3 : w.SeesAt o.ref o.pos p.2.1) :
    Rel { w with fields := w.fields ++ [o] } { v with fields := v.fields ++ [p] } :=
  ⟨hr.csvs, hr.fine, hr.rows, forall₂_snoc hr.fields ⟨h1, h2, h3⟩⟩

theorem grow_append (w : World) (h : Handle) : w.Grow { w with csvs := w.csvs ++ [some h] } :=
  ⟨by simp, fun ref hr h' hh => by
    dsimp only at hh
    rw [List.getElem?_append_left hr] at hh
    exact ⟨h', hh, rfl⟩⟩

theorem Rel.addCsv {w : World} {v : Values} (hr : Rel w v) {h : Handle} (hf : Fine h.csv)
    (h1 : (World.mk (w.csvs ++ [some h]) w.rows w.fields).Sees h.headRef h.csv.types)
    (h2 : (World.mk (w.csvs ++ [some h]) w.rows w.fields).Sees h.cacheRef h.csv.types) :
    Rel { w with csvs := w.csvs ++ [some h] } { v with csvs := v.csvs ++ [some h.csv] } := by
  have hg := grow_append w h
  refine ⟨by simp [hr.csvs], ?_, hr.rows.imp fun _ _ h => ⟨h.1, h.2.mono hg⟩,
    hr.fields.imp fun _ _ h => ⟨h.1, h.2.1, h.2.2.mono hg⟩⟩
  intro c k hk
  dsimp only at hk
  rw [List.getElem?_append] at hk
  split at hk
  · obtain ⟨a, b, d⟩ := hr.fine c k hk
    exact ⟨a, b.mono hg, d.mono hg⟩
  · have : k = h := by
      rcases hi : c - w.csvs.length with _ | n
      · rw [hi] at hk; simpa using hk.symm
      · rw [hi] at hk; simp at hk
    subst this
    exact ⟨hf, h1, h2⟩

theorem alive_append {w : World} (hA : w.AllAlive) (h : Handle) : ({ w with csvs := w.csvs ++ [some h] } : World).AllAlive := by
  intro c hc
  by_cases hl : c < w.csvs.length
  · obtain ⟨k, hk⟩ := hA c hl
    exact ⟨k, by dsimp only; rw [List.getElem?_append_left hl, hk]⟩
  · simp at hc
    have : c = w.csvs.length := by omega
    subst this
    exact ⟨h, by simp⟩

/-- Replacing a live object by one with the same types. -/
theorem grow_set {w : World} {c : Nat} {h k : Handle} (hc : w.csvs[c]? = some (some h))
    (ht : k.csv.types = h.csv.types) : w.Grow { w with csvs := w.csvs.set c (some k) } := by
  refine ⟨by simp, fun ref hr h' hh => ?_⟩
  dsimp only at hh
  rw [List.getElem?_set] at hh
  split at hh
  · rename_i he
    subst he
    rw [if_pos hr] at hh
    cases hh
    exact ⟨h, hc, ht.symm⟩
  · exact ⟨h', hh, rfl⟩

theorem Rel.setCsv {w : World} {v : Values} (hr : Rel w v) {c : Nat} {h k : Handle}
    (hc : w.csvs[c]? = some (some h)) (hf : Fine k.csv) (ht : k.csv.types = h.csv.types)
    (hh : k.headRef = h.headRef) (hk : k.cacheRef = h.cacheRef) :
    Rel { w with csvs := w.csvs.set c (some k) } { v with csvs := v.csvs.set c (some k.csv) } := by
  have hg := grow_set hc ht
  refine ⟨by simp [hr.csvs, List.map_set], ?_, hr.rows.imp fun _ _ h => ⟨h.1, h.2.mono hg⟩,
    hr.fields.imp fun _ _ h => ⟨h.1, h.2.1, h.2.2.mono hg⟩⟩
  intro d l hl
  dsimp only at hl
  rw [List.getElem?_set] at hl
  split at hl
  · split at hl
    · cases hl
      obtain ⟨-, b, e⟩ := hr.fine c h hc
      rw [hh, hk, ht]
      exact ⟨hf, b.mono hg, e.mono hg⟩
    · cases hl
  · obtain ⟨a, b, e⟩ := hr.fine d l hl
    exact ⟨a, b.mono hg, e.mono hg⟩

theorem alive_set {w : World} (hA : w.AllAlive) (c : Nat) (h : Handle) :
    ({ w with csvs := w.csvs.set c (some h) } : World).AllAlive := by
  intro d hd
  simp only [List.length_set] at hd
  obtain ⟨k, hk⟩ := hA d hd
  by_cases he : c = d
  · subst he
    exact ⟨h, by simp [List.getElem?_set, hd]⟩
  · exact ⟨k, by simp [List.getElem?_set, he, hk]⟩

/-- What a step of both worlds has to establish. -/
def After (A : Prop) (a : World × List Obs) (b : Values × List Obs) : Prop :=
  a.2 = b.2 ∧ Rel a.1 b.1 ∧ (A → a.1.AllAlive)

theorem step_make {w : World} {v : Values} (hr : Rel w v) (file : List Char) (types : List Ty) (sep : Char) :
    Sim w.AllAlive (After w.AllAlive) (w.step (.make file types sep)) (v.step (.make file types sep)) := by
  unfold World.step Values.step World.make
  dsimp only
  rcases hm : Csv.make (some file) types sep with c | m | _
  · obtain ⟨-, -, -, h4, h5, h6, -, -⟩ := make_fields hm
    refine ⟨rfl, hr.addCsv (h := ⟨c, w.csvs.length, w.csvs.length⟩) ⟨h5, h6, by show c.cols ≠ 0; rw [h4]; exact Nat.succ_ne_zero _⟩ ?_ ?_, fun hA => alive_append hA _⟩
    all_goals
      refine ⟨by simp, fun h hh => ?_⟩
      simp at hh
      rw [← hh]
  · rfl
  · trivial

theorem assoc {α β γ : Type} (e : Exec α) (f : α → Exec β) (g : β → Exec γ) :
    (e >>= f) >>= g = e >>= fun a => f a >>= g := by cases e <;> rfl

theorem Rel.setRows {w : World} {v : Values} (hr : Rel w v) {r : Nat} {o : RowObj} {p : Row × List Ty} (h1 : o.row = p.1)
    (h2 : w.Sees o.ref p.2) : Rel { w with rows := w.rows.set r o } { v with rows := v.rows.set r p } :=
  ⟨hr.csvs, hr.fine, forall₂_set hr.rows r ⟨h1, h2⟩, hr.fields⟩

theorem step_row {w : World} {v : Values} (hr : Rel w v) (c i : Nat) :
    Sim w.AllAlive (After w.AllAlive) (w.step (.row c i)) (v.step (.row c i)) := by
  unfold World.step Values.step World.row
  dsimp only
  rw [assoc]
  refine Sim.bind (hr.csv c) ?_
  rintro h d ⟨rfl, hc, hd⟩
  obtain ⟨hf, hs1, hs2⟩ := hr.fine c h hc
  unfold Csv.get
  by_cases hi : h.csv.cache.idx = i
  · rw [if_pos hi, if_pos hi]
    refine ⟨rfl, ?_, fun hA => hA⟩
    dsimp only
    rw [set_self hd]
    exact hr.addRow (o := ⟨h.csv.cache, h.cacheRef⟩) (p := (h.csv.cache, h.csv.types)) rfl hs2
  rw [if_neg hi, if_neg hi]
  by_cases h0 : h.csv.rows = 0
  · rw [if_pos h0, if_pos h0]; trivial
  rw [if_neg h0, if_neg h0]
  simp only [make_types hf.len hf.auto hf.cols]
  rw [assoc]
  have hw : w.Sees c h.csv.types :=
    ⟨(List.getElem?_eq_some_iff.mp hc).1, fun k hk => by rw [hc] at hk; cases hk; rfl⟩
  refine Sim.left (setTypes_same hw) ?_
  rw [handle_of hc, Exec.bind_ok]
  set row : Row := ⟨((skipLines (i % h.csv.rows) (In.on h.csv.file)).line '\n').2.getD [], i % h.csv.rows, h.csv.cols,
    h.csv.sep⟩ with hrow
  have hr' := hr.setCsv (k := { h with csv := { h.csv with cache := row } }) hc ⟨hf.len, hf.auto, hf.cols⟩ rfl rfl rfl
  have hg : w.Grow { w with csvs := w.csvs.set c (some { h with csv := { h.csv with cache := row } }) } :=
    grow_set hc rfl
  have hA' := fun hA : w.AllAlive => alive_set hA c { h with csv := { h.csv with cache := row } }
  rw [assoc]
  refine Sim.left ((setTypes_same (hs2.mono hg)).imp id fun q => ⟨q.1, fun hA => q.2 (hA' hA)⟩) ?_
  exact ⟨rfl, hr'.addRow (o := ⟨row, h.cacheRef⟩) (p := (row, h.csv.types)) rfl (hs2.mono hg), hA'⟩

theorem step_head {w : World} {v : Values} (hr : Rel w v) (c : Nat) :
    Sim w.AllAlive (After w.AllAlive) (w.step (.head c)) (v.step (.head c)) := by
  unfold World.step Values.step World.head
  dsimp only
  rw [assoc]
  refine Sim.bind (hr.csv c) ?_
  rintro h d ⟨rfl, hc, hd⟩
  obtain ⟨-, hs1, -⟩ := hr.fine c h hc
  exact ⟨rfl, hr.addRow (o := ⟨h.csv.header, h.headRef⟩) (p := (h.csv.header, h.csv.types)) rfl hs1, id⟩

theorem step_field {w : World} {v : Values} (hr : Rel w v) (r j : Nat) :
    Sim w.AllAlive (After w.AllAlive) (w.step (.field r j)) (v.step (.field r j)) := by
  unfold World.step Values.step World.field
  dsimp only
  rw [assoc]
  refine Sim.bind (forall₂_rd hr.rows r) ?_
  rintro ⟨row, ref⟩ ⟨row', ts⟩ ⟨⟨rfl, hs⟩, -, -⟩
  dsimp only at hs ⊢
  unfold Row.get
  by_cases hj : j ≥ row.cols
  · rw [if_pos hj, if_pos hj]; rfl
  rw [if_neg hj, if_neg hj]
  rcases hsc : scan row.sep j (In.on row.line) with f | m | _
  · simp only [Exec.bind_ok]
    rcases handle_cases w ref with ⟨k, hk⟩ | ⟨hk, hn⟩
    · have hts := hs.2 k (handle_ok hk)
      have hty : w.types ref = .ok ts := by unfold World.types; rw [hk, ← hts]; rfl
      rw [hty, Exec.bind_ok]
      rcases htj : ts[j]? with _ | t
      · rfl
      · have hne : t ≠ .auto := by
          rintro rfl
          apply (hr.fine ref k (handle_ok hk)).1.auto
          rw [hts]; exact List.mem_of_getElem? htj
        dsimp only
        rw [if_neg hne, if_neg hne]
        refine ⟨rfl, hr.addField (o := ⟨f, ref, j, j⟩) (p := (f, t, j)) rfl rfl ⟨hs.1, fun h' hh => ?_⟩, id⟩
        rw [hs.2 h' hh]; exact htj
    · have hty : w.types ref = .ub := by unfold World.types; rw [hk]; rfl
      rw [hty]
      exact Sim.ubLeft (fun hA => hn ⟨hs.1, hA⟩) _
  · rfl
  · trivial

theorem step_copyCsv {w : World} {v : Values} (hr : Rel w v) (c : Nat) :
    Sim w.AllAlive (After w.AllAlive) (w.step (.copyCsv c)) (v.step (.copyCsv c)) := by
  unfold World.step Values.step World.copyCsv
  dsimp only
  rw [assoc]
  refine Sim.bind (hr.csv c) ?_
  rintro h d ⟨rfl, hc, hd⟩
  obtain ⟨hf, hs1, hs2⟩ := hr.fine c h hc
  exact ⟨rfl, hr.addCsv hf (hs1.mono (grow_append w h)) (hs2.mono (grow_append w h)), fun hA => alive_append hA h⟩

theorem step_copyRow {w : World} {v : Values} (hr : Rel w v) (r : Nat) :
    Sim w.AllAlive (After w.AllAlive) (w.step (.copyRow r)) (v.step (.copyRow r)) := by
  unfold World.step Values.step World.copyRow
  dsimp only
  rw [assoc]
  refine Sim.bind (forall₂_rd hr.rows r) ?_
  rintro o p ⟨⟨h1, h2⟩, -, -⟩
  exact ⟨rfl, hr.addRow h1 h2, id⟩

theorem step_copyField {w : World} {v : Values} (hr : Rel w v) (f : Nat) :
    Sim w.AllAlive (After w.AllAlive) (w.step (.copyField f)) (v.step (.copyField f)) := by
  unfold World.step Values.step World.copyField
  dsimp only
  rw [assoc]
  refine Sim.bind (forall₂_rd hr.fields f) ?_
  rintro o p ⟨⟨h1, h2, h3⟩, -, -⟩
  exact ⟨rfl, hr.addField h1 h2 h3, id⟩

theorem step_setRow {w : World} {v : Values} (hr : Rel w v) (r s : Nat) (ha : v.Alike (.setRow r s)) :
    Sim w.AllAlive (After w.AllAlive) (w.step (.setRow r s)) (v.step (.setRow r s)) := by
  unfold World.step Values.step World.setRow
  dsimp only
  rw [assoc]
  refine Sim.bind (forall₂_rd hr.rows r) ?_
  rintro o p ⟨⟨h1, h2⟩, -, hp⟩
  rw [assoc]
  refine Sim.bind (forall₂_rd hr.rows s) ?_
  rintro o' p' ⟨⟨h1', h2'⟩, -, hp'⟩
  have ht : p.2 = p'.2 := ha p p' hp hp'
  rw [assoc]
  refine Sim.left (types_of h2') ?_
  rw [assoc]
  refine Sim.left (setTypes_same (ht ▸ h2)) ?_
  exact ⟨rfl, hr.setRows (o := ⟨o'.row, o.ref⟩) h1' (ht ▸ h2), id⟩

theorem typeAt_of {w : World} {ref pos : Nat} {t : Ty} (h : w.SeesAt ref pos t) :
    (∃ ts, w.types ref = .ok ts ∧ ts[pos]? = some t ∧ w.Sees ref ts) ∨ (w.types ref = .ub ∧ ¬ w.AllAlive) := by
  rcases handle_cases w ref with ⟨k, hk⟩ | ⟨hk, hn⟩
  · refine Or.inl ⟨k.csv.types, ?_, h.2 k (handle_ok hk), h.1, fun k' hk' => ?_⟩
    · unfold World.types; rw [hk]; rfl
    · rw [handle_ok hk] at hk'; cases hk'; rfl
  · right
    unfold World.types
    rw [hk]
    exact ⟨rfl, fun hA => hn ⟨h.1, hA⟩⟩

theorem step_setField {w : World} {v : Values} (hr : Rel w v) (f g : Nat) (ha : v.Alike (.setField f g)) :
    Sim w.AllAlive (After w.AllAlive) (w.step (.setField f g)) (v.step (.setField f g)) := by
  unfold World.step Values.step World.setField
  dsimp only
  rw [assoc]
  refine Sim.bind (forall₂_rd hr.fields f) ?_
  rintro o p ⟨⟨-, -, h3⟩, -, hp⟩
  rw [assoc]
  refine Sim.bind (forall₂_rd hr.fields g) ?_
  rintro o' p' ⟨⟨h1', h2', h3'⟩, -, hp'⟩
  have ht : p.2.1 = p'.2.1 := ha p p' hp hp'
  rw [assoc]
  rcases typeAt_of h3' with ⟨ts, e1, e2, -⟩ | ⟨e1, e2⟩
  swap
  · rw [e1]; exact Sim.ubLeft e2 _
  rw [e1, Exec.bind_ok, assoc, rd_of_some e2, Exec.bind_ok, assoc]
  rcases typeAt_of h3 with ⟨us, d1, d2, d3⟩ | ⟨d1, d2⟩
  swap
  · rw [d1]; exact Sim.ubLeft d2 _
  have hwr : wr us o.pos p'.2.1 = .ok us := by
    unfold wr
    rw [if_pos (List.getElem?_eq_some_iff.mp d2).1, ← ht, set_self d2]
  rw [d1, Exec.bind_ok, assoc, hwr, Exec.bind_ok, assoc]
  refine Sim.left (setTypes_same d3) ?_
  exact ⟨rfl, ⟨hr.csvs, hr.fine, hr.rows, forall₂_set hr.fields f (a := ⟨o'.text, o.ref, o.pos, o'.idx⟩)
    ⟨h1', h2', ht ▸ h3⟩⟩, id⟩

theorem step_setCsv {w : World} {v : Values} (hr : Rel w v) (c d : Nat) (ha : v.Alike (.setCsv c d)) :
    Sim w.AllAlive (After w.AllAlive) (w.step (.setCsv c d)) (v.step (.setCsv c d)) := by
  unfold World.step Values.step World.setCsv
  dsimp only
  rw [assoc]
  refine Sim.bind (hr.csv c) ?_
  rintro h x ⟨rfl, hc, hc'⟩
  rw [assoc]
  refine Sim.bind (hr.csv d) ?_
  rintro k y ⟨rfl, hd, hd'⟩
  have ht : h.csv.types = k.csv.types := by
    refine ha h.csv k.csv ?_ ?_
    · unfold Values.csv; rw [hc']
    · unfold Values.csv; rw [hd']
  obtain ⟨-, a1, a2⟩ := hr.fine c h hc
  obtain ⟨hf, b1, b2⟩ := hr.fine d k hd
  have hg : w.Grow { w with csvs := w.csvs.set c (some { h with csv := k.csv }) } := grow_set hc ht.symm
  have hr' := hr.setCsv (k := { h with csv := k.csv }) hc hf ht.symm rfl rfl
  have hA' := fun hA : w.AllAlive => alive_set hA c { h with csv := k.csv }
  have weak : ∀ {α : Type} {e : Exec α} {a : α},
      (e = .ok a ∨ (e = .ub ∧ ¬ ({ w with csvs := w.csvs.set c (some { h with csv := k.csv }) } : World).AllAlive)) →
      (e = .ok a ∨ (e = .ub ∧ ¬ w.AllAlive)) := fun q => q.imp id fun q => ⟨q.1, fun hA => q.2 (hA' hA)⟩
  rw [assoc]
  refine Sim.left (weak (types_of (b1.mono hg))) ?_
  rw [assoc]
  refine Sim.left (weak (setTypes_same (ht ▸ a1.mono hg))) ?_
  rw [assoc]
  refine Sim.left (weak (types_of (b2.mono hg))) ?_
  refine Sim.left (weak (setTypes_same (ht ▸ a2.mono hg))) ?_
  exact ⟨rfl, hr', hA'⟩

theorem step_drop {w : World} {v : Values} (hr : Rel w v) (c : Nat) :
    Sim w.AllAlive (After False) (w.step (.drop c)) (v.step (.drop c)) := by
  unfold World.step Values.step World.drop
  dsimp only
  rw [assoc]
  refine Sim.bind (hr.csv c) ?_
  rintro h x ⟨rfl, hc, hc'⟩
  have hg : w.Grow { w with csvs := w.csvs.set c none } := by
    refine ⟨by simp, fun ref hr h' hh => ?_⟩
    dsimp only at hh
    rw [List.getElem?_set] at hh
    split at hh
    · rename_i he; subst he; rw [if_pos hr] at hh; cases hh
    · exact ⟨h', hh, rfl⟩
  refine ⟨rfl, ⟨by simp [hr.csvs, List.map_set], ?_, hr.rows.imp fun _ _ h => ⟨h.1, h.2.mono hg⟩,
    hr.fields.imp fun _ _ h => ⟨h.1, h.2.1, h.2.2.mono hg⟩⟩, False.elim⟩
  intro e l hl
  obtain ⟨l', hl', -⟩ := hg.2 e (by have := (List.getElem?_eq_some_iff.mp hl).1; simpa using this) l hl
  have : w.csvs[e]? = some (some l) := by
    dsimp only at hl
    rw [List.getElem?_set] at hl
    split at hl
    · split at hl <;> cases hl
    · exact hl
  obtain ⟨a, b, q⟩ := hr.fine e l this
  exact ⟨a, b.mono hg, q.mono hg⟩

theorem step_seeCsv {w : World} {v : Values} (hr : Rel w v) (c : Nat) :
    Sim w.AllAlive (After w.AllAlive) (w.step (.seeCsv c)) (v.step (.seeCsv c)) := by
  unfold World.step Values.step World.seeCsv
  dsimp only
  rw [assoc]
  refine Sim.bind (hr.csv c) ?_
  rintro h x ⟨rfl, -, -⟩
  exact ⟨rfl, hr, id⟩

theorem step_seeRow {w : World} {v : Values} (hr : Rel w v) (r : Nat) :
    Sim w.AllAlive (After w.AllAlive) (w.step (.seeRow r)) (v.step (.seeRow r)) := by
  unfold World.step Values.step World.seeRow
  dsimp only
  rw [assoc]
  refine Sim.bind (forall₂_rd hr.rows r) ?_
  rintro o p ⟨⟨h1, h2⟩, -, -⟩
  rw [assoc]
  refine Sim.left (types_of h2) ?_
  rw [h1]
  exact ⟨rfl, hr, id⟩

theorem step_seeField {w : World} {v : Values} (hr : Rel w v) (f : Nat) :
    Sim w.AllAlive (After w.AllAlive) (w.step (.seeField f)) (v.step (.seeField f)) := by
  unfold World.step Values.step World.seeField
  dsimp only
  rw [assoc]
  refine Sim.bind (forall₂_rd hr.fields f) ?_
  rintro o p ⟨⟨h1, h2, h3⟩, -, -⟩
  rw [assoc]
  rcases typeAt_of h3 with ⟨ts, e1, e2, -⟩ | ⟨e1, e2⟩
  · rw [e1, Exec.bind_ok, assoc, rd_of_some e2, h1, h2]
    exact ⟨rfl, hr, id⟩
  · rw [e1]; exact Sim.ubLeft e2 _

theorem Sim.mono {α β : Type} {A : Prop} {R S : α → β → Prop} {e1 : Exec α} {e2 : Exec β} (h : Sim A R e1 e2)
    (hi : ∀ a b, R a b → S a b) : Sim A S e1 e2 := by
  cases e1 <;> cases e2 <;> first | exact hi _ _ h | exact h

theorem step_sim {w : World} {v : Values} (hr : Rel w v) (o : Op) (ha : v.Alike o) :
    Sim w.AllAlive (After (w.AllAlive ∧ ∀ c, o ≠ .drop c)) (w.step o) (v.step o) := by
  have up : ∀ {e1 e2}, Sim w.AllAlive (After w.AllAlive) e1 e2 →
      Sim w.AllAlive (After (w.AllAlive ∧ ∀ c, o ≠ .drop c)) e1 e2 :=
    fun h => h.mono fun a b q => ⟨q.1, q.2.1, fun hA => q.2.2 hA.1⟩
  cases o with
  | make file types sep => exact up (step_make hr file types sep)
  | row c i => exact up (step_row hr c i)
  | head c => exact up (step_head hr c)
  | field r j => exact up (step_field hr r j)
  | copyCsv c => exact up (step_copyCsv hr c)
  | copyRow r => exact up (step_copyRow hr r)
  | copyField f => exact up (step_copyField hr f)
  | setCsv c d => exact up (step_setCsv hr c d ha)
  | setRow r s => exact up (step_setRow hr r s ha)
  | setField f g => exact up (step_setField hr f g ha)
  | drop c => exact (step_drop hr c).mono fun a b q => ⟨q.1, q.2.1, fun hA => (hA.2 c rfl).elim⟩
  | seeCsv c => exact up (step_seeCsv hr c)
  | seeRow r => exact up (step_seeRow hr r)
  | seeField f => exact up (step_seeField hr f)

theorem run_sim : ∀ (os : List Op) {w : World} {v : Values}, Rel w v → v.AssignsAlike os →
    Sim (w.AllAlive ∧ KeepsAll os) (· = ·) (w.run os) (v.run os)
  | [], _, _, _, _ => rfl
  | o :: os, w, v, hr, ha => by
    have h := step_sim hr o ha.1
    unfold World.run Values.run
    rcases hw : w.step o with a | m | _ <;> rcases hv : v.step o with b | m' | _ <;> rw [hw, hv] at h
    · obtain ⟨h1, h2, h3⟩ := h
      have ih := run_sim os h2 (ha.2 b hv)
      simp only [Exec.bind_ok]
      rcases hq : a.1.run os with x | m | _ <;> rcases hp : b.1.run os with y | m' | _ <;> rw [hq, hp] at ih
      · show a.2 ++ x = b.2 ++ y
        rw [h1, show x = y from ih]
      · exact ih.elim
      · exact ih.elim
      · exact ih.elim
      · exact ih
      · exact ih.elim
      · exact fun hA => ih ⟨h3 ⟨hA.1, fun c he => hA.2 c (by simp [he])⟩, fun c hc => hA.2 c (by simp [hc])⟩
      · exact fun hA => ih ⟨h3 ⟨hA.1, fun c he => hA.2 c (by simp [he])⟩, fun c hc => hA.2 c (by simp [hc])⟩
      · trivial
    · exact h.elim
    · exact h.elim
    · exact h.elim
    · exact h
    · exact h.elim
    · exact Sim.ubLeft (fun hA => h hA.1) _
    · exact Sim.ubLeft (fun hA => h hA.1) _
    · trivial

/-! ### Several iterators -/

theorem forall₂_get {α β : Type} {R : α → β → Prop} {l : List α} {m : List β} (h : List.Forall₂ R l m) :
    ∀ {i : Nat} {b : β}, m[i]? = some b → ∃ a, l[i]? = some a ∧ R a b := by
  induction h with
  | nil => intro i b hb; simp at hb
  | cons hab _ ih =>
    intro i b hb
    cases i with
    | zero => simp at hb; subst hb; exact ⟨_, rfl, hab⟩
    | succ i => exact ih (by simpa using hb)

/-- The iterator is at this position. -/
def At (file : List Char) (ls : List (List Char)) (rest : List Char) (it : Iter) (p : Nat) : Prop :=
  ItInv file ls rest it ∧ it.req = p ∧ p ≤ ls.length

theorem stepIters_spec {file : List Char} {ls : List (List Char)} {rest : List Char} (hl : Lines file ls rest)
    (h0 : ls ≠ []) (hw : ls.length < 2 ^ 64) {its : List Iter} {ps : List Nat}
    (h : List.Forall₂ (At file ls rest) its ps) {o : IOp} {r : List Nat × List Saw}
    (hr : stepPositions ls ps o = some r) :
    ∃ q, stepIters file its o = .ok (q, r.2) ∧ List.Forall₂ (At file ls rest) q r.1 := by
  have hcopy : ∀ {it : Iter} {p : Nat}, At file ls rest it p → At file ls rest (it.copy file) p := by
    intro it p ha
    obtain ⟨a, b⟩ := iter_make hl h0 it.req
    exact ⟨a, b.trans ha.2.1, ha.2.2⟩
  have hnext : ∀ {it : Iter} {p : Nat}, At file ls rest it p → p < ls.length → At file ls rest it.next (p + 1) := by
    intro it p ha hp
    refine ⟨ha.1.next, ?_, hp⟩
    rw [next_req (by rw [ha.2.1]; omega), ha.2.1]
  have hprev : ∀ {it : Iter} {p : Nat}, At file ls rest it p → 0 < p → At file ls rest it.prev (p - 1) := by
    intro it p ha hp
    refine ⟨ha.1.prev, ?_, by have := ha.2.2; omega⟩
    rw [prev_req (by rw [ha.2.1]; exact hp), ha.2.1]
  cases o with
  | copy k =>
    simp only [stepPositions] at hr
    rcases hk : ps[k]? with _ | p
    · rw [hk] at hr; cases hr
    · rw [hk] at hr; cases hr
      obtain ⟨it, h1, h2⟩ := forall₂_get h hk
      exact ⟨_, by simp only [stepIters, rd_of_some h1]; rfl, forall₂_snoc h (hcopy h2)⟩
  | next k =>
    simp only [stepPositions] at hr
    rcases hk : ps[k]? with _ | p
    · rw [hk] at hr; cases hr
    · rw [hk] at hr
      simp only [Option.bind_eq_bind, Option.bind_some] at hr
      split at hr
      · cases hr
        obtain ⟨it, h1, h2⟩ := forall₂_get h hk
        exact ⟨_, by simp only [stepIters, rd_of_some h1]; rfl, forall₂_set h k (hnext h2 (by assumption))⟩
      · cases hr
  | prev k =>
    simp only [stepPositions] at hr
    rcases hk : ps[k]? with _ | p
    · rw [hk] at hr; cases hr
    · rw [hk] at hr
      simp only [Option.bind_eq_bind, Option.bind_some] at hr
      split at hr
      · cases hr
        obtain ⟨it, h1, h2⟩ := forall₂_get h hk
        exact ⟨_, by simp only [stepIters, rd_of_some h1]; rfl, forall₂_set h k (hprev h2 (by assumption))⟩
      · cases hr
  | postNext k =>
    simp only [stepPositions] at hr
    rcases hk : ps[k]? with _ | p
    · rw [hk] at hr; cases hr
    · rw [hk] at hr
      simp only [Option.bind_eq_bind, Option.bind_some] at hr
      split at hr
      · cases hr
        obtain ⟨it, h1, h2⟩ := forall₂_get h hk
        exact ⟨_, by simp only [stepIters, rd_of_some h1]; rfl,
          forall₂_snoc (forall₂_set h k (hnext h2 (by assumption))) (hcopy h2)⟩
      · cases hr
  | postPrev k =>
    simp only [stepPositions] at hr
    rcases hk : ps[k]? with _ | p
    · rw [hk] at hr; cases hr
    · rw [hk] at hr
      simp only [Option.bind_eq_bind, Option.bind_some] at hr
      split at hr
      · cases hr
        obtain ⟨it, h1, h2⟩ := forall₂_get h hk
        exact ⟨_, by simp only [stepIters, rd_of_some h1]; rfl,
          forall₂_snoc (forall₂_set h k (hprev h2 (by assumption))) (hcopy h2)⟩
      · cases hr
  | look k =>
    simp only [stepPositions] at hr
    rcases hk : ps[k]? with _ | p
    · rw [hk] at hr; cases hr
    · rw [hk] at hr
      simp only [Option.bind_eq_bind, Option.bind_some] at hr
      rcases hp : ls[p]? with _ | l
      · rw [hp] at hr; cases hr
      · rw [hp] at hr
        cases hr
        obtain ⟨it, h1, h2⟩ := forall₂_get h hk
        have hlt : it.req < ls.length := by rw [h2.2.1]; exact (List.getElem?_eq_some_iff.mp hp).1
        obtain ⟨u1, u2, u3⟩ := update_spec hl h2.1 hlt
        have hline := u1.line
        rw [u2, h2.2.1, hp] at hline
        refine ⟨its.set k it.update, ?_, ?_⟩
        · simp only [stepIters, rd_of_some h1, Exec.bind_ok, u2, h2.2.1, Option.some.inj hline]
        · have := forall₂_set (R := At file ls rest) h k (a := it.update) (b := p) ⟨u1, u3.trans h2.2.1, h2.2.2⟩
          rwa [set_self hk] at this
  | same j k =>
    simp only [stepPositions] at hr
    rcases hj : ps[j]? with _ | p
    · rw [hj] at hr; cases hr
    · rcases hk : ps[k]? with _ | p'
      · rw [hj, hk] at hr; cases hr
      · rw [hj, hk] at hr; cases hr
        obtain ⟨it, h1, h2⟩ := forall₂_get h hj
        obtain ⟨it', h1', h2'⟩ := forall₂_get h hk
        exact ⟨its, by simp only [stepIters, rd_of_some h1, rd_of_some h1', Exec.bind_ok, h2.2.1, h2'.2.1], h⟩

theorem runIters_spec {file : List Char} {ls : List (List Char)} {rest : List Char} (hl : Lines file ls rest)
    (h0 : ls ≠ []) (hw : ls.length < 2 ^ 64) : ∀ (os : List IOp) {its : List Iter} {ps : List Nat} {seen : List Saw},
    List.Forall₂ (At file ls rest) its ps → runPositions ls ps os = some seen → runIters file its os = .ok seen
  | [], _, _, _, _, h => by cases h; rfl
  | o :: os, its, ps, seen, h, hr => by
    simp only [runPositions] at hr
    rcases hs : stepPositions ls ps o with _ | r
    · rw [hs] at hr; cases hr
    · rw [hs] at hr
      simp only [Option.bind_eq_bind, Option.bind_some] at hr
      rcases hq : runPositions ls r.1 os with _ | q
      · rw [hq] at hr; cases hr
      · rw [hq] at hr
        cases hr
        obtain ⟨its', h1, h2⟩ := stepIters_spec hl h0 hw h hs
        simp only [runIters, h1, Exec.bind_ok, runIters_spec hl h0 hw os h2 hq]

/-! ### Checking programs -/

/-- Decides `Values.Alike`. -/
def alikeB (v : Values) : Op → Bool
  | .setCsv c d => match v.csv c, v.csv d with
    | .ok k, .ok l => decide (k.types = l.types)
    | _, _ => true
  | .setRow r s => match v.rows[r]?, v.rows[s]? with
    | some o, some p => decide (o.2 = p.2)
    | _, _ => true
  | .setField f g => match v.fields[f]?, v.fields[g]? with
    | some o, some p => decide (o.2.1 = p.2.1)
    | _, _ => true
  | _ => true

/-- Decides `Values.AssignsAlike`. -/
def assignsAlikeB (v : Values) : List Op → Bool
  | [] => true
  | o :: os => alikeB v o && match v.step o with
    | .ok r => assignsAlikeB r.1 os
    | _ => true

theorem alikeB_sound {v : Values} {o : Op} (h : alikeB v o = true) : v.Alike o := by
  cases o with
  | setCsv c d =>
    intro k l hk hl
    simp only [alikeB, hk, hl, decide_eq_true_eq] at h
    exact h
  | setRow r s =>
    intro k l hk hl
    simp only [alikeB, hk, hl, decide_eq_true_eq] at h
    exact h
  | setField f g =>
    intro k l hk hl
    simp only [alikeB, hk, hl, decide_eq_true_eq] at h
    exact h
  | _ => trivial

theorem assignsAlikeB_sound : ∀ {os : List Op} {v : Values}, assignsAlikeB v os = true → v.AssignsAlike os
  | [], _, _ => trivial
  | o :: os, v, h => by
    simp only [assignsAlikeB, Bool.and_eq_true] at h
    refine ⟨alikeB_sound h.1, fun r hr => assignsAlikeB_sound ?_⟩
    have := h.2
    rwa [hr] at this

theorem rel_empty : Rel {} {} := ⟨rfl, fun c h hc => by simp at hc, .nil, .nil⟩

end Verif.Csv

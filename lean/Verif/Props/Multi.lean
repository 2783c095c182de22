import Verif.Spec.Multi
import Verif.Proofs.NetLayer

/-! C105: networks for several frameworks. -/

namespace Verif.Props

open Verif Verif.Spec Verif.Multi

variable {σ ι ρ : Type}

theorem get_put_same {m : Nets σ} {f : Framework} {s s' : σ} (h : get m f = .ok s) : get (put m f s') f = .ok s' := by
  unfold Multi.get at h ⊢
  induction m with
  | nil => cases h
  | cons e m ih =>
    unfold put
    rw [List.map_cons, List.find?_cons]
    by_cases he : e.1 = f
    · simp [he]
    · rw [List.find?_cons] at h
      simp only [he, decide_false] at h
      simp only [he, if_false, decide_false]
      exact ih h

theorem get_put_ne {m : Nets σ} {f g : Framework} {s' : σ} (hne : g ≠ f) : get (put m f s') g = get m g := by
  unfold Multi.get
  induction m with
  | nil => rfl
  | cons e m ih =>
    unfold put at ih ⊢
    rw [List.map_cons, List.find?_cons, List.find?_cons]
    by_cases he : e.1 = f
    · have h1 : ¬ f = g := fun h => hne h.symm
      have h2 : ¬ e.1 = g := by rw [he]; exact h1
      simp only [he, if_true, h1, decide_false]
      exact ih
    · simp only [he, if_false]
      by_cases hg : e.1 = g
      · simp [hg]
      · simp only [hg, decide_false]
        exact ih

theorem keys_put (m : Nets σ) (f : Framework) (s' : σ) : (put m f s').map Prod.fst = m.map Prod.fst := by
  unfold put
  rw [List.map_map]
  apply List.map_congr_left
  intro e _
  by_cases he : e.1 = f <;> simp [he]

theorem callOne_keys {serve : Serve σ ι ρ} {f : Framework} {i : ι} {m : Nets σ} {r : Nets σ × Except String ρ}
    (h : callOne serve f i m = .ok r) : r.1.map Prod.fst = m.map Prod.fst := by
  unfold callOne at h
  obtain ⟨s, _, h⟩ := Exec.bind_eq_ok h
  obtain ⟨q, _, h⟩ := Exec.bind_eq_ok h
  cases h
  exact keys_put _ _ _

theorem callOne_same {serve : Serve σ ι ρ} {f : Framework} {i : ι} {m : Nets σ} {s : σ} (hs : get m f = .ok s)
    {r : Nets σ × Except String ρ} (h : callOne serve f i m = .ok r) :
    ∃ s', serve f i s = .ok (s', r.2) ∧ get r.1 f = .ok s' := by
  unfold callOne at h
  rw [hs, Exec.bind_ok] at h
  obtain ⟨q, hq, h⟩ := Exec.bind_eq_ok h
  cases h
  exact ⟨q.1, hq, get_put_same hs⟩

theorem callOne_other {serve : Serve σ ι ρ} {f g : Framework} {i : ι} {m : Nets σ} (hne : g ≠ f)
    {r : Nets σ × Except String ρ} (h : callOne serve f i m = .ok r) : get r.1 g = get m g := by
  unfold callOne at h
  obtain ⟨s, _, h⟩ := Exec.bind_eq_ok h
  obtain ⟨q, _, h⟩ := Exec.bind_eq_ok h
  cases h
  exact get_put_ne hne

theorem callLoop_keys {serve : Serve σ ι ρ} {i : ι} : ∀ (fs : List Framework) (m : Nets σ) r,
    callLoop serve i fs m = .ok r → r.1.map Prod.fst = m.map Prod.fst
  | [], m, r, h => by unfold callLoop at h; cases h; rfl
  | f :: fs, m, r, h => by
    unfold callLoop at h
    obtain ⟨q, hq, h⟩ := Exec.bind_eq_ok h
    have hk := callOne_keys hq
    split at h
    · cases h; exact hk
    · obtain ⟨q2, hq2, h⟩ := Exec.bind_eq_ok h
      cases h
      exact (callLoop_keys fs _ _ hq2).trans hk

theorem callLoop_other {serve : Serve σ ι ρ} {i : ι} {g : Framework} : ∀ (fs : List Framework) (m : Nets σ) r,
    g ∉ fs → callLoop serve i fs m = .ok r →
    get r.1 g = get m g ∧ ∀ l, r.2 = .ok l → l.filter (·.1 = g) = []
  | [], m, r, _, h => by
    unfold callLoop at h; cases h
    exact ⟨rfl, fun l hl => by cases hl; rfl⟩
  | f :: fs, m, r, hg, h => by
    unfold callLoop at h
    have hgf : g ≠ f := fun e => hg (by simp [e])
    obtain ⟨q, hq, h⟩ := Exec.bind_eq_ok h
    have ho := callOne_other hgf hq
    split at h
    · cases h
      exact ⟨ho, fun l hl => by cases hl⟩
    · obtain ⟨q2, hq2, h⟩ := Exec.bind_eq_ok h
      cases h
      obtain ⟨k1, k2⟩ := callLoop_other fs _ _ (fun e => hg (List.mem_cons_of_mem _ e)) hq2
      refine ⟨k1.trans ho, fun l hl => ?_⟩
      cases hx : q2.2 with
      | error e => rw [hx] at hl; cases hl
      | ok l2 =>
        rw [hx] at hl
        cases hl
        have : ¬ f = g := fun e => hgf e.symm
        simp [this, k2 l2 hx]

theorem callLoop_served {serve : Serve σ ι ρ} {i : ι} {g : Framework} : ∀ (fs : List Framework) (m : Nets σ) r s,
    fs.Nodup → g ∈ fs → get m g = .ok s → callLoop serve i fs m = .ok r → ∀ l, r.2 = .ok l →
    ∃ s' y, serve g i s = .ok (s', .ok y) ∧ get r.1 g = .ok s' ∧ l.filter (·.1 = g) = [(g, y)]
  | [], m, r, s, _, hg, _, _, _, _ => absurd hg (by simp)
  | f :: fs, m, r, s, hn, hg, hs, h, l, hl => by
    unfold callLoop at h
    obtain ⟨q, hq, h⟩ := Exec.bind_eq_ok h
    obtain ⟨hf, hn⟩ := List.nodup_cons.mp hn
    split at h
    · cases h; cases hl
    · rename_i y hy
      obtain ⟨q2, hq2, h⟩ := Exec.bind_eq_ok h
      cases h
      cases hx : q2.2 with
      | error e => rw [hx] at hl; cases hl
      | ok l2 =>
        rw [hx] at hl
        cases hl
        by_cases hgf : g = f
        · subst hgf
          obtain ⟨s', k1, k2⟩ := callOne_same hs hq
          obtain ⟨k3, k4⟩ := callLoop_other fs _ _ hf hq2
          refine ⟨s', y, by rw [k1, hy], k3.trans k2, ?_⟩
          simp [k4 l2 hx]
        · have ho := callOne_other hgf hq
          obtain ⟨s', y', k1, k2, k3⟩ := callLoop_served fs _ _ s hn (by simpa [hgf] using hg) (ho.trans hs) hq2 l2 hx
          refine ⟨s', y', k1, k2, ?_⟩
          have : ¬ f = g := fun e => hgf e.symm
          simp [this, k3]

/-- **C105**, partial: after any history of calls, some for one framework and some for all, in which no call for all
frameworks throws, the network of every framework is in the state, and has returned or thrown the results, that it
would have if it alone had got its calls.  Missing: calls for all frameworks that throw; they do not reach the
frameworks after the one that throws (`C105_unserved_refuted`, `C105_first_partial`). -/
theorem C105_independent_partial (serve : Serve σ ι ρ) (made : Framework → σ) (enabled : Bool) (cs : List (Call ι))
    (m : Nets σ) (rs : List (Except String (List (Framework × ρ)))) (h : calls serve cs (Multi.new enabled made) = .ok (m, rs))
    (hall : AllServed cs rs) (f : Framework) (hf : f = .edgeLearning ∨ enabled = true) :
    ∃ s, alone (serve f) (requests f cs) (made f) = .ok (s, answers f cs rs) ∧ Multi.get m f = .ok s := by
  have h0 : get (Multi.new enabled made) f = .ok (made f) := by
    unfold Multi.get Multi.new
    rcases hf with rfl | rfl
    · rfl
    · cases f <;> rfl
  have hn : ((Multi.new enabled made).map Prod.fst).Nodup := by
    unfold Multi.new
    cases enabled <;> simp
  have hk : f ∈ (Multi.new enabled made).map Prod.fst := by
    unfold Multi.new
    rcases hf with rfl | rfl
    · simp
    · cases f <;> simp
  generalize Multi.new enabled made = m0 at h h0 hn hk
  generalize made f = s0 at h0
  induction cs generalizing m0 s0 rs with
  | nil =>
    unfold calls at h
    cases h
    exact ⟨s0, rfl, h0⟩
  | cons c cs ih =>
    unfold calls at h
    obtain ⟨r, hr, h⟩ := Exec.bind_eq_ok h
    obtain ⟨q, hq, h⟩ := Exec.bind_eq_ok h
    cases h
    have hall' : AllServed cs q.2 := fun i r' hi => hall i r' (by simp [hi])
    cases c with
    | one g i =>
      obtain ⟨r1, hr1, e⟩ := Exec.bind_eq_ok hr
      cases e
      have hk1 := callOne_keys hr1
      by_cases hg : g = f
      · subst hg
        obtain ⟨s1, k1, k2⟩ := callOne_same h0 hr1
        obtain ⟨s2, a1, a2⟩ := ih q.2 hall' r1.1 hq (by rw [hk1]; exact hn) (by rw [hk1]; exact hk) s1 k2
        refine ⟨s2, ?_, a2⟩
        have : answers g (Call.one g i :: cs) ((r1.2.map fun y => [(g, y)]) :: q.2) = r1.2 :: answers g cs q.2 := by
          cases hx : r1.2 <;> simp [answers, Except.map]
        rw [this]
        simp only [requests, if_true, alone, k1, Exec.bind_ok, a1]
      · have ho := callOne_other (g := f) (fun e => hg e.symm) hr1
        obtain ⟨s2, a1, a2⟩ := ih q.2 hall' r1.1 hq (by rw [hk1]; exact hn) (by rw [hk1]; exact hk) s0 (ho.trans h0)
        refine ⟨s2, ?_, a2⟩
        simp only [requests, answers, hg, if_false]
        exact a1
    | all i =>
      have hk1 := callLoop_keys _ _ _ hr
      obtain ⟨l, hl⟩ := hall i r.2 (by simp)
      obtain ⟨s1, y, k1, k2, k3⟩ := callLoop_served _ _ _ s0 hn hk h0 hr l hl
      obtain ⟨s2, a1, a2⟩ := ih q.2 hall' r.1 hq (by rw [hk1]; exact hn) (by rw [hk1]; exact hk) s1 k2
      refine ⟨s2, ?_, a2⟩
      simp only [requests, answers, hl, k3, alone, k1, Exec.bind_ok, a1]
      rfl

/-- The network of a framework, if no call for all frameworks throws, as above; and, whether they throw or not, the
network of the repository (`Framework::EDGE_LEARNING`), which is served first, is in the state it would have if it alone
had got its calls. -/
theorem C105_first_partial (serve : Serve σ ι ρ) (made : Framework → σ) (enabled : Bool) (cs : List (Call ι))
    (m : Nets σ) (rs : List (Except String (List (Framework × ρ)))) (h : calls serve cs (Multi.new enabled made) = .ok (m, rs)) :
    ∃ s as, alone (serve .edgeLearning) (requests .edgeLearning cs) (made .edgeLearning) = .ok (s, as) ∧
      Multi.get m .edgeLearning = .ok s := by
  have h0 : Multi.get (Multi.new enabled made) .edgeLearning = .ok (made .edgeLearning) := rfl
  have hk : ∃ ks, (Multi.new enabled made).map Prod.fst = .edgeLearning :: ks ∧ Framework.edgeLearning ∉ ks := by
    cases enabled
    · exact ⟨[], rfl, by simp⟩
    · exact ⟨[.mlpack], rfl, by simp⟩
  obtain ⟨ks, hk, hks⟩ := hk
  generalize Multi.new enabled made = m0 at h h0 hk
  generalize made .edgeLearning = s0 at h0
  induction cs generalizing m0 s0 rs with
  | nil =>
    unfold calls at h
    cases h
    exact ⟨s0, [], rfl, h0⟩
  | cons c cs ih =>
    unfold calls at h
    obtain ⟨r, hr, h⟩ := Exec.bind_eq_ok h
    obtain ⟨q, hq, h⟩ := Exec.bind_eq_ok h
    cases h
    cases c with
    | one g i =>
      obtain ⟨r1, hr1, e⟩ := Exec.bind_eq_ok hr
      cases e
      have hk1 := callOne_keys hr1
      by_cases hg : g = .edgeLearning
      · subst hg
        obtain ⟨s1, k1, k2⟩ := callOne_same h0 hr1
        obtain ⟨s2, as, a1, a2⟩ := ih q.2 r1.1 hq (by rw [hk1]; exact hk) s1 k2
        refine ⟨s2, r1.2 :: as, ?_, a2⟩
        simp only [requests, if_true, alone, k1, Exec.bind_ok, a1]
      · have ho := callOne_other (g := .edgeLearning) (fun e => hg e.symm) hr1
        obtain ⟨s2, as, a1, a2⟩ := ih q.2 r1.1 hq (by rw [hk1]; exact hk) s0 (ho.trans h0)
        refine ⟨s2, as, ?_, a2⟩
        simp only [requests, hg, if_false]
        exact a1
    | all i =>
      have hk1 := callLoop_keys _ _ _ hr
      have hr' : callLoop serve i (.edgeLearning :: ks) m0 = .ok r := by rw [← hk]; exact hr
      unfold callLoop at hr'
      obtain ⟨r1, hr1, hr'⟩ := Exec.bind_eq_ok hr'
      obtain ⟨s1, k1, k2⟩ := callOne_same h0 hr1
      have hget : Multi.get r.1 .edgeLearning = .ok s1 := by
        split at hr'
        · cases hr'; exact k2
        · obtain ⟨r2, hr2, hr'⟩ := Exec.bind_eq_ok hr'
          cases hr'
          exact (callLoop_other _ _ _ hks hr2).1.trans k2
      obtain ⟨s2, as, a1, a2⟩ := ih q.2 r.1 hq (by rw [hk1]; exact hk) s1 hget
      refine ⟨s2, r1.2 :: as, ?_, a2⟩
      simp only [requests, alone, k1, Exec.bind_ok, a1]

/-- What holds of mlpack in every history: its network is in the state it would have if it alone had got the calls for
it and those calls for all frameworks in which the network of the repository did not throw. -/
theorem C105_second_actual_partial (serve : Serve σ ι ρ) (made : Framework → σ) (cs : List (Call ι))
    (m : Nets σ) (rs : List (Except String (List (Framework × ρ)))) (h : calls serve cs (Multi.new true made) = .ok (m, rs)) :
    ∃ is s as, arriving (serve .edgeLearning) cs (made .edgeLearning) = .ok is ∧
      alone (serve .mlpack) is (made .mlpack) = .ok (s, as) ∧ Multi.get m .mlpack = .ok s := by
  have hm0 : Multi.new true made = [(.edgeLearning, made .edgeLearning), (.mlpack, made .mlpack)] := rfl
  rw [hm0] at h
  generalize made .edgeLearning = s0 at h
  generalize made .mlpack = t0 at h
  induction cs generalizing s0 t0 rs with
  | nil =>
    unfold calls at h
    cases h
    exact ⟨[], t0, [], rfl, rfl, rfl⟩
  | cons c cs ih =>
    unfold calls at h
    obtain ⟨r, hr, h⟩ := Exec.bind_eq_ok h
    obtain ⟨q, hq, h⟩ := Exec.bind_eq_ok h
    cases h
    cases c with
    | one g i =>
      obtain ⟨r1, hr1, e⟩ := Exec.bind_eq_ok hr
      cases e
      cases g with
      | edgeLearning =>
        obtain ⟨p, hp, e⟩ := Exec.bind_eq_ok (show (serve .edgeLearning i s0 >>= _) = _ from hr1)
        cases e
        obtain ⟨is, s, as, b1, b2, b3⟩ := ih q.2 p.1 t0 hq
        exact ⟨is, s, as, by simp only [arriving, hp, Exec.bind_ok, b1], b2, b3⟩
      | mlpack =>
        obtain ⟨p, hp, e⟩ := Exec.bind_eq_ok (show (serve .mlpack i t0 >>= _) = _ from hr1)
        cases e
        obtain ⟨is, s, as, b1, b2, b3⟩ := ih q.2 s0 p.1 hq
        exact ⟨i :: is, s, p.2 :: as, by simp only [arriving, Exec.bind_ok, b1],
          by simp only [alone, hp, Exec.bind_ok, b2], b3⟩
    | all i =>
      obtain ⟨r1, hr1, hr⟩ := Exec.bind_eq_ok (show (callOne serve .edgeLearning i _ >>= _) = _ from hr)
      obtain ⟨p, hp, e⟩ := Exec.bind_eq_ok (show (serve .edgeLearning i s0 >>= _) = _ from hr1)
      cases e
      dsimp only at hr
      cases hp2 : p.2 with
      | error msg =>
        simp only [hp2] at hr
        cases hr
        obtain ⟨is, s, as, b1, b2, b3⟩ := ih q.2 p.1 t0 hq
        exact ⟨is, s, as, by simp only [arriving, hp, Exec.bind_ok, b1, hp2], b2, b3⟩
      | ok y =>
        simp only [hp2] at hr
        obtain ⟨r2, hr2, hr⟩ := Exec.bind_eq_ok hr
        cases hr
        obtain ⟨r3, hr3, hr2⟩ := Exec.bind_eq_ok (show (callOne serve .mlpack i _ >>= _) = _ from hr2)
        obtain ⟨p3, hp3, e⟩ := Exec.bind_eq_ok (show (serve .mlpack i t0 >>= _) = _ from hr3)
        cases e
        have hst : r2.1 = [(.edgeLearning, p.1), (.mlpack, p3.1)] := by
          dsimp only at hr2
          cases hp4 : p3.2 with
          | error msg => simp only [hp4] at hr2; cases hr2; rfl
          | ok z =>
            simp only [hp4] at hr2
            obtain ⟨r4, hr4, hr2⟩ := Exec.bind_eq_ok hr2
            cases hr2
            unfold callLoop at hr4
            cases hr4
            rfl
        simp only [hst] at hq
        obtain ⟨is, s, as, b1, b2, b3⟩ := ih q.2 p.1 p3.1 hq
        exact ⟨i :: is, s, p3.2 :: as, by simp only [arriving, hp, Exec.bind_ok, b1, hp2],
          by simp only [alone, hp3, Exec.bind_ok, b2], b3⟩

/-- The calls of an object for both frameworks never leave defined behaviour, if those of the two networks do not. -/
theorem C105_defined_partial (serve : Serve σ ι ρ) (hs : ∀ f i s, ∃ r, serve f i s = .ok r) (made : Framework → σ)
    (cs : List (Call ι)) : ∃ r, calls serve cs (Multi.new true made) = .ok r := by
  have hm0 : Multi.new true made = [(.edgeLearning, made .edgeLearning), (.mlpack, made .mlpack)] := rfl
  rw [hm0]
  generalize made .edgeLearning = s0
  generalize made .mlpack = t0
  have one : ∀ g i s t, ∃ s' t' x, callOne serve g i [(.edgeLearning, s), (.mlpack, t)] =
      .ok ([(.edgeLearning, s'), (.mlpack, t')], x) := by
    intro g i s t
    cases g with
    | edgeLearning =>
      obtain ⟨p, hp⟩ := hs .edgeLearning i s
      refine ⟨p.1, t, p.2, ?_⟩
      show (serve .edgeLearning i s >>= _) = _
      rw [hp]
      rfl
    | mlpack =>
      obtain ⟨p, hp⟩ := hs .mlpack i t
      refine ⟨s, p.1, p.2, ?_⟩
      show (serve .mlpack i t >>= _) = _
      rw [hp]
      rfl
  have loop : ∀ i fs s t, ∃ s' t' x, callLoop serve i fs [(.edgeLearning, s), (.mlpack, t)] =
      .ok ([(.edgeLearning, s'), (.mlpack, t')], x) := by
    intro i fs
    induction fs with
    | nil => exact fun s t => ⟨s, t, _, rfl⟩
    | cons f fs ih =>
      intro s t
      obtain ⟨s1, t1, x, h1⟩ := one f i s t
      unfold callLoop
      rw [h1, Exec.bind_ok]
      cases x with
      | error e => exact ⟨s1, t1, _, rfl⟩
      | ok y =>
        obtain ⟨s2, t2, x2, h2⟩ := ih s1 t1
        refine ⟨s2, t2, x2.map ((f, y) :: ·), ?_⟩
        simp only [h2, Exec.bind_ok]
  induction cs generalizing s0 t0 with
  | nil => exact ⟨_, rfl⟩
  | cons c cs ih =>
    have hc : ∃ s' t' x, call serve [(.edgeLearning, s0), (.mlpack, t0)] c = .ok ([(.edgeLearning, s'), (.mlpack, t')], x) := by
      cases c with
      | one g i =>
        obtain ⟨s', t', x, h⟩ := one g i s0 t0
        refine ⟨s', t', x.map fun y => [(g, y)], ?_⟩
        show (callOne serve g i _ >>= _) = _
        rw [h]
        rfl
      | all i => exact loop i _ s0 t0
    obtain ⟨s', t', x, h⟩ := hc
    obtain ⟨r, hr⟩ := ih s' t'
    refine ⟨(r.1, x :: r.2), ?_⟩
    unfold calls
    rw [h, Exec.bind_ok]
    dsimp only
    rw [hr]
    rfl

/-- A history that meets the hypotheses: the two networks are compiled, that of mlpack is trained, then both are. -/
example : calls train [.all .compile, .one .mlpack .fit, .all .fit] (Multi.new true fun _ => none) =
      .ok ([(.edgeLearning, some 1), (.mlpack, some 2)],
        [.ok [(.edgeLearning, ()), (.mlpack, ())], .ok [(.mlpack, ())], .ok [(.edgeLearning, ()), (.mlpack, ())]]) ∧
    requests .mlpack [.all Request.compile, .one .mlpack .fit, .all .fit] = [.compile, .fit, .fit] ∧
    (∀ f i s, ∃ r, train f i s = .ok r) := by
  refine ⟨rfl, rfl, fun f i s => ?_⟩
  cases i <;> cases s <;> exact ⟨_, rfl⟩

example : AllServed [.all Request.compile, .one .mlpack .fit, .all .fit]
    [.ok [(.edgeLearning, ()), (.mlpack, ())], .ok [(.mlpack, ())], .ok [(.edgeLearning, ()), (.mlpack, ())]] := by
  intro i r h
  simp only [List.zip_cons_cons, List.zip_nil_left, List.mem_cons, List.not_mem_nil, or_false, Prod.mk.injEq,
    Call.all.injEq, reduceCtorEq, false_and, false_or] at h
  rcases h with ⟨_, rfl⟩ | ⟨_, rfl⟩ <;> exact ⟨_, rfl⟩

/-- **C105** is false of the code: a call for all frameworks that throws in the network of the repository is not made
for mlpack.  After `compile(Framework::MLPACK)`, a call `fit(data)` throws because the network of the repository has
not been compiled, and that of mlpack, which has been, is not trained. -/
theorem C105_unserved_refuted : ¬ EachAlone train (fun _ => none) true := by
  intro h
  obtain ⟨s, as, h1, h2⟩ := h [.one .mlpack .compile, .all .fit] _ _ rfl .mlpack (.inr rfl)
  have e1 : alone (train .mlpack) (requests .mlpack [.one .mlpack .compile, .all .fit]) none =
      .ok (some 1, [.ok (), .ok ()]) := rfl
  rw [e1] at h1
  cases h1
  cases h2

end Verif.Props

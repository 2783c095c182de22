import Verif.Spec.Grid
import Verif.Proofs.Fnn

/-! Rows, columns and channels along a feedforward network. -/

namespace Verif.Net

open Verif.Graph Verif.Spec

/-- Is the shape still known to be that of the grid after a layer? -/
def nextKnown (b : Prop) (g : Shape3) : Kind → Prop
  | .dense _ => True
  | .dropout _ _ _ => Flat g
  | _ => b

/-- `PlaceableAll` and `Undisturbed`, descriptor by descriptor. -/
def Seen : Prop → Shape3 → List Descriptor → Prop
  | _, _, [] => True
  | b, g, d :: ds => Placeable g d.kind ∧ (Windowed d.kind → b) ∧ (∀ u s, d.kind = .dense u → s ∈ u → Flat s) ∧
      Seen (nextKnown b g d.kind) (gridAfter g d.kind) ds

theorem placeable_cons {g : Shape3} {d : Descriptor} {ds : List Descriptor} (h : PlaceableAll g (d :: ds)) :
    Placeable g d.kind ∧ PlaceableAll (gridAfter g d.kind) ds :=
  ⟨h 0 d rfl, fun i e he => h (i + 1) e he⟩

theorem undisturbed_cons {g : Shape3} {d : Descriptor} {ds : List Descriptor} (h : Undisturbed g (d :: ds)) :
    Undisturbed (gridAfter g d.kind) ds := by
  refine ⟨fun i j d' e hij h1 h2 h3 h4 => ?_, fun d' u s h1 => h.2 d' u s (List.mem_cons_of_mem _ h1)⟩
  rcases h.1 (i + 1) (j + 1) d' e (by omega) h1 h2 h3 h4 with h5 | ⟨k, u, c, h5, h6, h7, h8⟩
  · exact Or.inl h5
  · obtain ⟨k', rfl⟩ : ∃ k', k = k' + 1 := ⟨k - 1, by omega⟩
    exact Or.inr ⟨k', u, c, by omega, by omega, h7, h8⟩

theorem seen_of : ∀ (ds : List Descriptor) (b : Prop) (g : Shape3), PlaceableAll g ds → Undisturbed g ds →
    (b ∨ ∀ (j : Nat) (e : Descriptor), ds[j]? = some e → Windowed e.kind → ∃ (k : Nat) (u : LayerShape) (c : Descriptor), k < j ∧ ds[k]? = some c ∧ c.kind = .dense u) →
    Seen b g ds := by
  intro ds
  induction ds with
  | nil => intro b g _ _ _; trivial
  | cons d ds ih =>
    intro b g h1 h2 h3
    obtain ⟨h4, h5⟩ := placeable_cons h1
    have hw : Windowed d.kind → b := by
      intro hw
      rcases h3 with h3 | h3
      · exact h3
      · obtain ⟨k, _, _, hk, _⟩ := h3 0 d rfl hw
        omega
    refine ⟨h4, hw, fun u s hu hs => h2.2 d u s List.mem_cons_self hu hs, ih _ _ h5 (undisturbed_cons h2) ?_⟩
    have keep : (∀ u, d.kind ≠ .dense u) → (b ∨ ∀ (j : Nat) (e : Descriptor), ds[j]? = some e → Windowed e.kind →
        ∃ (k : Nat) (u : LayerShape) (c : Descriptor), k < j ∧ ds[k]? = some c ∧ c.kind = .dense u) := by
      intro hd
      rcases h3 with h3 | h3
      · exact Or.inl h3
      · refine Or.inr fun j e he hwe => ?_
        obtain ⟨k, u, c, hk, hc, hcu⟩ := h3 (j + 1) e he hwe
        match k, hk, hc with
        | 0, _, hc => cases hc; exact absurd hcu (hd u)
        | k + 1, hk, hc => exact ⟨k, u, c, by omega, hc, hcu⟩
    cases hk : d.kind with
    | dense u => exact Or.inl trivial
    | dropout p mx raw =>
      show Flat g ∨ _
      by_cases hf : Flat g
      · exact Or.inl hf
      · refine Or.inr fun j e he hwe => ?_
        rcases h2.1 0 (j + 1) d e (by omega) rfl he ⟨p, mx, raw, hk⟩ hwe with h6 | ⟨k, u, c, h6, h7, h8, h9⟩
        · exact absurd h6 hf
        · obtain ⟨k', rfl⟩ : ∃ k', k = k' + 1 := ⟨k - 1, by omega⟩
          exact ⟨k', u, c, by omega, h8, h9⟩
    | input u => exact keep (by rw [hk]; simp)
    | conv nf kernel stride padding => exact keep (by rw [hk]; simp)
    | maxPool kernel stride => exact keep (by rw [hk]; simp)
    | avgPool kernel stride => exact keep (by rw [hk]; simp)

theorem flat_eq {g : Shape3} (h : Flat g) : (⟨g.size, 1, 1⟩ : Shape3) = g := by
  obtain ⟨a, b, c⟩ := g
  obtain ⟨h1, h2⟩ := h
  simp only at h1 h2
  subst h1 h2
  simp [Shape3.size]

theorem one_of_length {u : LayerShape} (h : u.length = 1) : ∃ s, u = [s] := List.length_eq_one_iff.mp h

theorem conv_mk {s : Shape3} {nf : Nat} {kernel stride padding : Shape2}
    (h1 : (⟨s, kernel.h, kernel.w, stride.h, stride.w, padding.h, padding.w⟩ : Geom).Fits) :
    ∃ l : Slide.ConvLayer ℝ, Slide.ConvLayer.mk' s kernel nf stride padding = .ok l ∧ l.input = s ∧
      l.output = ⟨placements s.h kernel.h stride.h padding.h, placements s.w kernel.w stride.w padding.w, nf⟩ := by
  unfold Slide.ConvLayer.mk' Slide.convOutputShape
  rw [Slide.outputSide_eq h1.h_pos h1.sh_pos h1.kh_pos h1.kh_le h1.h_lt, Exec.bind_ok,
    Slide.outputSide_eq h1.w_pos h1.sw_pos h1.kw_pos h1.kw_le h1.w_lt, Exec.bind_ok]
  exact ⟨_, rfl, rfl, rfl⟩

theorem pool_mk {s : Shape3} {kernel stride : Shape2}
    (h1 : (⟨s, kernel.h, kernel.w, stride.h, stride.w, 0, 0⟩ : Geom).Fits) :
    ∃ l : Slide.PoolLayer ℝ, Slide.PoolLayer.mk' s kernel stride = .ok l ∧ l.input = s ∧
      l.output = ⟨placements s.h kernel.h stride.h 0, placements s.w kernel.w stride.w 0, s.c⟩ := by
  unfold Slide.PoolLayer.mk' Slide.poolOutputShape
  rw [Slide.outputSide_eq h1.h_pos h1.sh_pos h1.kh_pos h1.kh_le h1.h_lt, Exec.bind_ok,
    Slide.outputSide_eq h1.w_pos h1.sw_pos h1.kw_pos h1.kw_le h1.w_lt, Exec.bind_ok]
  exact ⟨_, rfl, rfl, rfl⟩

/-- The constructors at the grid `g`, if the shape passed to them has its size, and is it if a window slides. -/
theorem construct_grid {b : Prop} {g s : Shape3} {k : Kind} (h1 : Placeable g k) (h2 : Windowed k → b)
    (h3 : ∀ u s, k = .dense u → s ∈ u → Flat s) (hb : b → s = g) (hs : s.size = g.size) :
    ∃ a s', construct k [s] = .ok (a, [s']) ∧ WorksOn g a ∧ a.outputSize = s'.size ∧
      s'.size = (gridAfter g k).size ∧ (nextKnown b g k → s' = gridAfter g k) := by
  cases k with
  | input u => exact False.elim h1
  | dense u =>
    obtain ⟨t, rfl⟩ := one_of_length h1
    refine ⟨_, _, rfl, hs, (size_one _).symm, size_one _, fun _ => ?_⟩
    exact flat_eq (h3 _ t rfl List.mem_cons_self)
  | dropout p mx raw =>
    refine ⟨_, _, rfl, hs, (size_one _).symm, (size_one _).trans hs, fun hf => ?_⟩
    show (⟨s.size, 1, 1⟩ : Shape3) = g
    rw [hs]
    exact flat_eq hf
  | conv nf kernel stride padding =>
    have e := hb (h2 trivial)
    subst e
    obtain ⟨l, e1, e2, e3⟩ := conv_mk (nf := nf) h1
    refine ⟨.conv l, l.output, ?_, e2, rfl, by rw [e3]; rfl, fun _ => e3⟩
    show (LayerShape.shape [s] >>= fun s => Slide.ConvLayer.mk' s kernel nf stride padding >>= _) = _
    rw [show LayerShape.shape [s] = .ok s from rfl, Exec.bind_ok, e1, Exec.bind_ok]
  | maxPool kernel stride =>
    have e := hb (h2 trivial)
    subst e
    obtain ⟨l, e1, e2, e3⟩ := pool_mk h1
    refine ⟨.maxPool l, l.output, ?_, e2, rfl, by rw [e3]; rfl, fun _ => e3⟩
    show (LayerShape.shape [s] >>= fun s => Slide.PoolLayer.mk' s kernel stride >>= _) = _
    rw [show LayerShape.shape [s] = .ok s from rfl, Exec.bind_ok, e1, Exec.bind_ok]
  | avgPool kernel stride =>
    have e := hb (h2 trivial)
    subst e
    obtain ⟨l, e1, e2, e3⟩ := pool_mk h1
    refine ⟨.avgPool l, l.output, ?_, e2, rfl, by rw [e3]; rfl, fun _ => e3⟩
    show (LayerShape.shape [s] >>= fun s => Slide.PoolLayer.mk' s kernel stride >>= _) = _
    rw [show LayerShape.shape [s] = .ok s from rfl, Exec.bind_ok, e1, Exec.bind_ok]

/-- What a list of descriptors adds. -/
theorem addAll_grid : ∀ (ds : List Descriptor) (b : Prop) (g s : Shape3) (f : Fnn) (k : Nat), Seen b g ds →
    (b → s = g) → s.size = g.size → PathGraph k k f.model → f.outputShape = [s] → f.firstAdd = false →
    ∃ f' s', f.addAll ds = .ok (f', List.replicate ds.length none) ∧ f'.outputShape = [s'] ∧
      s'.size = (gridOf g ds).size ∧ PathGraph (k + 2 * ds.length) (k + 2 * ds.length) f'.model ∧
      ∃ ext : List AnyLayer, f'.layers = f.layers ++ ext ∧ ext.length = 2 * ds.length ∧
        (∀ (i : Nat) (d : Descriptor), ds[i]? = some d → ∃ a, ext[2 * i]? = some a ∧ WorksOn (gridOf g (ds.take i)) a) ∧
        ∀ a, ext.getLast? = some a → a.outputSize = (gridOf g ds).size := by
  intro ds
  induction ds with
  | nil =>
    intro b g s f k _ _ hs hp ho hf
    exact ⟨f, s, rfl, ho, hs, hp, [], by simp, rfl, by simp, by simp⟩
  | cons d ds ih =>
    intro b g s f k h hb hs hp ho hf
    obtain ⟨h1, h2, h3, h4⟩ := h
    obtain ⟨a, s1, e1, e2, e3, e4, e5⟩ := construct_grid h1 h2 h3 hb hs
    obtain ⟨m', e6, e7⟩ := attach_ok (f := f) hp d.activation a (s := s1)
    obtain ⟨f', s', i1, i2, i3, i4, ext, i5, i6, i7, i8⟩ := ih _ _ s1
      ⟨m', f.layers ++ [a] ++ [.act d.activation.fn (Act.Layer.new s1.size)], [s1], f.firstAdd⟩ (k + 2) h4 e5 e4 e7 rfl hf
    have hadd : f.add d = .ok (⟨m', f.layers ++ [a] ++ [.act d.activation.fn (Act.Layer.new s1.size)], [s1],
        f.firstAdd⟩, none) := by
      rw [add_eq hf, ho, e1]
      exact e6
    refine ⟨f', s', ?_, i2, i3, by rw [List.length_cons]; convert i4 using 1 <;> omega,
      a :: .act d.activation.fn (Act.Layer.new s1.size) :: ext, ?_, ?_, ?_, ?_⟩
    · show (f.add d >>= _) = _
      rw [hadd, Exec.bind_ok]
      dsimp only
      rw [i1, Exec.bind_ok]
      rfl
    · rw [i5]; simp
    · simp [i6]; omega
    · intro i d' hi
      match i, hi with
      | 0, hi => cases hi; exact ⟨a, rfl, e2⟩
      | i + 1, hi => exact i7 i d' hi
    · intro x hx
      cases ext with
      | nil =>
        have : ds = [] := by
          cases ds with
          | nil => rfl
          | cons _ _ => simp at i6
        subst this
        simp only [List.getLast?_cons_cons, List.getLast?_singleton, Option.some.injEq] at hx
        subst hx
        show _ = (gridAfter g d.kind).size
        simpa [AnyLayer.outputSize, Act.Layer.new] using e4
      | cons y ys =>
        rw [List.getLast?_cons_cons, List.getLast?_cons_cons] at hx
        exact i8 x hx

end Verif.Net

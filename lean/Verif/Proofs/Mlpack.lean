import Verif.Proofs.Grid

/-! The construction of networks of mlpack. -/

namespace Verif.Mlpack

open Verif.Net Verif.Spec

theorem conv_shape {s : Shape3} {nf : Nat} {kernel stride padding : Shape2}
    (h1 : (⟨s, kernel.h, kernel.w, stride.h, stride.w, padding.h, padding.w⟩ : Geom).Fits) :
    Slide.convOutputShape s kernel stride padding nf
      = .ok ⟨placements s.h kernel.h stride.h padding.h, placements s.w kernel.w stride.w padding.w, nf⟩ := by
  unfold Slide.convOutputShape
  rw [Slide.outputSide_eq h1.h_pos h1.sh_pos h1.kh_pos h1.kh_le h1.h_lt, Exec.bind_ok,
    Slide.outputSide_eq h1.w_pos h1.sw_pos h1.kw_pos h1.kw_le h1.w_lt, Exec.bind_ok]
  rfl

theorem pool_shape {s : Shape3} {kernel stride : Shape2}
    (h1 : (⟨s, kernel.h, kernel.w, stride.h, stride.w, 0, 0⟩ : Geom).Fits) :
    Slide.poolOutputShape s kernel stride
      = .ok ⟨placements s.h kernel.h stride.h 0, placements s.w kernel.w stride.w 0, s.c⟩ := by
  unfold Slide.poolOutputShape
  rw [Slide.outputSide_eq h1.h_pos h1.sh_pos h1.kh_pos h1.kh_le h1.h_lt, Exec.bind_ok,
    Slide.outputSide_eq h1.w_pos h1.sw_pos h1.kw_pos h1.kw_le h1.w_lt, Exec.bind_ok]
  rfl

theorem addLayer_grid {g : Shape3} {k : Kind} (h : Placeable g k) :
    ∃ l, addLayer k [g] = .ok (l, [gridAfter g k]) ∧ MlImplements g k l := by
  cases k with
  | input u => exact False.elim h
  | dense u =>
    obtain ⟨t, rfl⟩ := one_of_length h
    exact ⟨_, rfl, t, rfl, rfl⟩
  | dropout p mx raw => exact ⟨_, rfl, rfl⟩
  | conv nf kernel stride padding =>
    refine ⟨_, ?_, rfl⟩
    show (LayerShape.shape [g] >>= fun s => Slide.convOutputShape s kernel stride padding nf >>= _) = _
    rw [show LayerShape.shape [g] = .ok g from rfl, Exec.bind_ok, conv_shape h, Exec.bind_ok]
    rfl
  | maxPool kernel stride =>
    refine ⟨_, ?_, rfl⟩
    show (LayerShape.shape [g] >>= fun s => Slide.poolOutputShape s kernel stride >>= _) = _
    rw [show LayerShape.shape [g] = .ok g from rfl, Exec.bind_ok, pool_shape h, Exec.bind_ok]
    rfl
  | avgPool kernel stride =>
    refine ⟨_, ?_, rfl⟩
    show (LayerShape.shape [g] >>= fun s => Slide.poolOutputShape s kernel stride >>= _) = _
    rw [show LayerShape.shape [g] = .ok g from rfl, Exec.bind_ok, pool_shape h, Exec.bind_ok]
    rfl

theorem activates (t : ActivationType) : MlActivates t (activation t) := by cases t <;> rfl

theorem add_next {f : Fnn} (hf : f.firstAdd = false) {d : Descriptor} {g : Shape3} (ho : f.outputShape = [g])
    (h : Placeable g d.kind) : ∃ l, MlImplements g d.kind l ∧
      f.add d = .ok (⟨f.added ++ [l, activation d.activation], f.inputShape, [gridAfter g d.kind], f.names + 1, false⟩,
        none) := by
  obtain ⟨l, e1, e2⟩ := addLayer_grid h
  refine ⟨l, e2, ?_⟩
  obtain ⟨a, i, o, n, b⟩ := f
  simp only at hf ho
  subst hf ho
  unfold Fnn.add
  simp only
  rw [e1]

theorem addAll_grid : ∀ (ds : List Descriptor) (g : Shape3) (f : Fnn), PlaceableAll g ds → f.outputShape = [g] →
    f.firstAdd = false →
    ∃ (f' : Fnn) (ext : List Layer), f.addAll ds = .ok (f', List.replicate ds.length none) ∧
      f'.inputShape = f.inputShape ∧ f'.outputShape = [gridOf g ds] ∧ f'.names = f.names + ds.length ∧
      f'.added = f.added ++ ext ∧ ext.length = 2 * ds.length ∧
      ∀ (i : Nat) (d : Descriptor), ds[i]? = some d →
        (∃ l, ext[2 * i]? = some l ∧ MlImplements (gridOf g (ds.take i)) d.kind l) ∧
        ∃ l, ext[2 * i + 1]? = some l ∧ MlActivates d.activation l := by
  intro ds
  induction ds with
  | nil =>
    intro g f _ ho _
    exact ⟨f, [], rfl, rfl, ho, rfl, by simp, rfl, by simp⟩
  | cons d ds ih =>
    intro g f h ho hf
    obtain ⟨h1, h2⟩ := placeable_cons h
    obtain ⟨l, e1, e2⟩ := add_next hf ho h1
    obtain ⟨f', ext, i1, i2, i3, i4, i5, i6, i7⟩ := ih _ ⟨f.added ++ [l, activation d.activation], f.inputShape,
      [gridAfter g d.kind], f.names + 1, false⟩ h2 rfl rfl
    refine ⟨f', l :: activation d.activation :: ext, ?_, i2, i3, ?_, ?_, ?_, ?_⟩
    · show (f.add d >>= _) = _
      rw [e2, Exec.bind_ok]
      dsimp only
      rw [i1, Exec.bind_ok]
      rfl
    · rw [i4, List.length_cons]; dsimp only; omega
    · rw [i5]; simp
    · simp [i6]; omega
    · intro i d' hi
      match i, hi with
      | 0, hi => cases hi; exact ⟨⟨l, rfl, e1⟩, _, rfl, activates _⟩
      | i + 1, hi => exact i7 i d' hi

end Verif.Mlpack

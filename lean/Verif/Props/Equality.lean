import Verif.Model.Equality
import Verif.Props.AnyBuffer
import Verif.Samples

/-!
# C124: comparing, cloning and reusing buffers
-/

namespace Verif.Props
open Verif Verif.Spec

theorem dynamic_eq_iff (a b : Dynamic) : a.eq b = true ↔ a = b := by
  obtain ⟨x, y, z⟩ := a
  obtain ⟨x', y', z'⟩ := b
  simp [Dynamic.eq]

theorem slice_eq_iff (a b : Slice) : a.eq b = true ↔ a = b := by
  obtain ⟨x, y, z, u⟩ := a
  obtain ⟨x', y', z', u'⟩ := b
  simp [Slice.eq]

/-- C124: two `Dynamic`s compare equal exactly if their contents and the place of their current layer are the same. -/
theorem C124_dynamic_observed (a b : Dynamic) :
    a.eq b = true ↔ Buffer.intoInner a = Buffer.intoInner b ∧ Buffer.offset a = Buffer.offset b ∧
      Buffer.length a = Buffer.length b := by
  rw [dynamic_eq_iff]
  obtain ⟨x, y, z⟩ := a
  obtain ⟨x', y', z'⟩ := b
  simp [Buffer.intoInner, Buffer.offset, Buffer.length]

/-- C124: after any two histories two `Dynamic`s compare equal exactly if the bytes below the current layer and those of
the current layer are the same; how the bytes below are divided into layers, and what was there before a `clear`, does
not matter. -/
theorem C124_dynamic_histories (cfg : Cfg) (xs ys : List BufOp) (hx : BufOp.Fits cfg.isizeMax xs .empty)
    (hy : BufOp.Fits cfg.isizeMax ys .empty) (a b : Dynamic) (ha : history cfg xs Dynamic.new = (.ok (), a))
    (hb : history cfg ys Dynamic.new = (.ok (), b)) :
    a.eq b = true ↔ (BufOp.after xs .empty).pre = (BufOp.after ys .empty).pre ∧
      (BufOp.after xs .empty).top = (BufOp.after ys .empty).top := by
  obtain ⟨a', e1, ra⟩ := dyn_history cfg xs _ .empty DynRep.new hx
  obtain ⟨b', e2, rb⟩ := dyn_history cfg ys _ .empty DynRep.new hy
  rw [ha] at e1
  rw [hb] at e2
  obtain rfl : a = a' := congrArg Prod.snd e1
  obtain rfl : b = b' := congrArg Prod.snd e2
  rw [dynamic_eq_iff]
  constructor
  · rintro rfl
    have h : (BufOp.after xs .empty).pre ++ (BufOp.after xs .empty).top =
        (BufOp.after ys .empty).pre ++ (BufOp.after ys .empty).top := by rw [← ra.inner, ← rb.inner]
    exact List.append_inj h (by rw [← ra.offset, ← rb.offset])
  · rintro ⟨h1, h2⟩
    have i1 := ra.inner
    have i2 := rb.inner
    have o1 := ra.offset
    have o2 := rb.offset
    have l1 := ra.length
    have l2 := rb.length
    rw [← h1, ← h2] at i2
    rw [← h1] at o2
    rw [← h2] at l2
    obtain ⟨x, y, z⟩ := a
    obtain ⟨x', y', z'⟩ := b
    simp only at i1 i2 o1 o2 l1 l2
    subst i1 i2 o1 o2 l1 l2
    rfl

/-- C124: a clone compares equal, so whatever is done to one of the two gives what it gives on the other; a cleared
`Dynamic` compares equal to a new one, so a program run on it builds what it builds on a new one. -/
theorem C124_clone_clear (cfg : Cfg) (b : Dynamic) (p : Program) :
    b.eq b.clone = true ∧ p.run cfg b.clone = p.run cfg b ∧
      (Buffer.clear b : Dynamic).eq Dynamic.new = true ∧ p.run cfg (Buffer.clear b : Dynamic) = p.run cfg Dynamic.new :=
  ⟨(dynamic_eq_iff _ _).2 rfl, rfl, (dynamic_eq_iff _ _).2 rfl, rfl⟩

/-- A concrete case that meets the hypotheses, in which the layers differ and the buffers compare equal. -/
example (cfg : Cfg) :=
    (C124_dynamic_histories cfg [.next 2, .next 3, .next 4] [.next 9, .clear, .next 5, .next 3, .more 1]
      ⟨by in_every_build, by show _ ≤ _; in_every_build, by show _ ≤ _; in_every_build, by show _ ≤ _; in_every_build⟩
      ⟨by in_every_build, by show _ ≤ _; in_every_build, by show _ ≤ _; in_every_build, by show _ ≤ _; in_every_build,
        by show _ ≤ _; in_every_build, by show _ ≤ _; in_every_build⟩ _ _
      (Prod.ext (by in_every_build) rfl) (Prod.ext (by in_every_build) rfl)).2 ⟨by decide, by decide⟩

/-- C124 for `Slice`: after any two histories two static buffers compare equal exactly if the bytes below the current
layer, those of the current layer and the bytes of the storage that are not in use are the same. -/
theorem C124_slice_histories (cfg : Cfg) (s t : Bytes) (hs : s.length ≤ cfg.isizeMax) (ht : t.length ≤ cfg.isizeMax)
    (xs ys : List BufOp) (mx : BufOp.MoreOnEmpty xs .empty) (my : BufOp.MoreOnEmpty ys .empty)
    (hx : BufOp.Fits s.length xs .empty) (hy : BufOp.Fits t.length ys .empty) (a b : Slice)
    (ha : history cfg xs (Slice.new s) = (.ok (), a)) (hb : history cfg ys (Slice.new t) = (.ok (), b)) :
    a.eq b = true ↔ (BufOp.after xs .empty).pre = (BufOp.after ys .empty).pre ∧
      (BufOp.after xs .empty).top = (BufOp.after ys .empty).top ∧
      a.inner.drop (Buffer.used a) = b.inner.drop (Buffer.used b) := by
  obtain ⟨a', e1, ⟨tx, ra⟩, _⟩ := slice_history cfg s xs _ .empty ⟨_, SliceRep.new hs⟩ rfl mx hx
  obtain ⟨b', e2, ⟨ty, rb⟩, _⟩ := slice_history cfg t ys _ .empty ⟨_, SliceRep.new ht⟩ rfl my hy
  rw [ha] at e1
  rw [hb] at e2
  obtain rfl : a = a' := congrArg Prod.snd e1
  obtain rfl : b = b' := congrArg Prod.snd e2
  rw [slice_eq_iff]
  show _ ↔ _ ∧ _ ∧ a.inner.drop a.used = b.inner.drop b.used
  generalize BufOp.after xs .empty = l at *
  generalize BufOp.after ys .empty = m at *
  have i1 := ra.inner
  have i2 := rb.inner
  have o1 := ra.offset
  have o2 := rb.offset
  have l1 := ra.length
  have l2 := rb.length
  have u1 := ra.used
  have u2 := rb.used
  clear ra rb e1 e2 ha hb
  obtain ⟨x, y, z, u⟩ := a
  obtain ⟨x', y', z', u'⟩ := b
  simp only at i1 i2 o1 o2 l1 l2 u1 u2 ⊢
  subst i1 i2 o1 o2 l1 l2 u1 u2
  rw [List.drop_left' (by simp), List.drop_left' (by simp)]
  constructor
  · intro h
    injection h with h1 h2 h3 h4
    rw [List.append_assoc, List.append_assoc] at h1
    obtain ⟨h5, h6⟩ := List.append_inj h1 h2
    obtain ⟨h7, h8⟩ := List.append_inj h6 h3
    exact ⟨h5, h7, h8⟩
  · rintro ⟨h1, h2, h3⟩
    rw [h1, h2, h3]

/-- A concrete case that meets the hypotheses: two static buffers that show the same layers over storages that differ
where nothing has been written do not compare equal. -/
example (cfg : Cfg) := C124_slice_histories cfg [1, 2, 3, 4] [1, 2, 3, 5] (by in_every_build) (by in_every_build)
    [.next 2] [.next 2] ⟨(fun _ h => (by cases h)), trivial⟩ ⟨(fun _ h => (by cases h)), trivial⟩
    ⟨by decide, by show _ ≤ _; decide⟩ ⟨by decide, by show _ ≤ _; decide⟩ _ _
    (Prod.ext (by in_every_build) rfl) (Prod.ext (by in_every_build) rfl)

/-- C124: a cleared static buffer compares equal to a new one over the storage as the earlier use has left it. -/
theorem C124_slice_clear (cfg : Cfg) (b : Slice) (p : Program) :
    (Buffer.clear b : Slice).eq (Slice.new b.inner) = true ∧
      p.run cfg (Buffer.clear b : Slice) = p.run cfg (Slice.new b.inner) :=
  ⟨(slice_eq_iff _ _).2 rfl, rfl⟩

end Verif.Props

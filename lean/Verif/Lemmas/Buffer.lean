import Verif.Model.Buffer
import Verif.Lemmas.Bits

/-! # The two buffers as (bytes below, current layer) -/

namespace Verif
open Verif

theorem zeros_length (n : Nat) : (zeros n).length = n := by simp [zeros]

theorem put_middle (a b c d : Bytes) (h : d.length = b.length) :
    put (a ++ b ++ c) a.length d = a ++ d ++ c := by
  unfold put
  simp only [List.append_assoc]
  rw [List.take_left' rfl, h, ← List.drop_drop, List.drop_left' rfl, List.drop_left' rfl]

theorem slice_middle (a b c : Bytes) : slice (a ++ b ++ c) a.length (a.length + b.length) = .ok b := by
  rw [slice_ok (by omega) (by simp)]
  congr 1
  rw [List.append_assoc, List.take_append]
  simp

/-- `Dynamic` holds `pre` below the current layer `layer`. -/
structure DynRep (cfg : Cfg) (b : Dynamic) (pre layer : Bytes) : Prop where
  inner : b.inner = pre ++ layer
  offset : b.offset = pre.length
  length : b.length = layer.length
  bound : pre.length + layer.length ≤ cfg.isizeMax

/-- `Slice` holds `pre` below the current layer `layer`, and the unused storage is `tail`. -/
structure SliceRep (cfg : Cfg) (b : Slice) (pre layer tail : Bytes) : Prop where
  inner : b.inner = pre ++ layer ++ tail
  offset : b.offset = pre.length
  length : b.length = layer.length
  used : b.used = pre.length + layer.length
  bound : b.inner.length ≤ cfg.isizeMax

theorem DynRep.new {cfg : Cfg} : DynRep cfg Dynamic.new [] [] := ⟨rfl, rfl, rfl, Nat.zero_le _⟩

theorem DynRep.data {b pre layer} (cfg : Cfg) (h : DynRep cfg b pre layer) : Dynamic.data cfg b = .ok layer := by
  have hb := h.bound
  unfold Dynamic.data
  rw [h.offset, h.length, addUsize_ok (by have := cfg.width; omega)]
  have := slice_middle pre layer []
  rw [List.append_nil] at this
  rw [h.inner]
  exact this

theorem DynRep.modifyData {b pre layer} (cfg : Cfg) (h : DynRep cfg b pre layer) {α : Type} (f : Mut Bytes α)
    (hf : (f layer).2.length = layer.length) :
    ∃ b', Dynamic.modifyData cfg f b = ((f layer).1, b') ∧ DynRep cfg b' pre (f layer).2 := by
  unfold Dynamic.modifyData
  rw [h.data cfg]
  refine ⟨_, rfl, ?_, h.offset, by rw [hf]; exact h.length, by rw [hf]; exact h.bound⟩
  have := put_middle pre layer [] _ hf
  simp only [List.append_nil] at this
  simp only [h.inner, h.offset, this]

theorem vecResize_grow {cfg : Cfg} {v : Bytes} {n : Nat} (h : v.length + n ≤ cfg.isizeMax) :
    vecResize cfg v (v.length + n) = .ok (v ++ zeros n) := by
  unfold vecResize
  rw [if_pos h, List.take_of_length_le (by omega)]
  congr 3
  omega

theorem DynRep.next {b pre layer} (cfg : Cfg) (h : DynRep cfg b pre layer) {n : Nat}
    (hn : pre.length + layer.length + n ≤ cfg.isizeMax) :
    ∃ b', Dynamic.next cfg n b = (.ok (), b') ∧ DynRep cfg b' (pre ++ layer) (zeros n) := by
  have hb := h.bound
  have hm := cfg.width
  have hl : b.inner.length = pre.length + layer.length := by rw [h.inner]; simp
  unfold Dynamic.next
  rw [addUsize_ok (by rw [h.offset, h.length]; omega)]
  simp only []
  rw [addUsize_ok (by omega)]
  simp only []
  rw [vecResize_grow (by omega)]
  refine ⟨_, rfl, by simp [h.inner], by simp [h.offset, h.length], by simp [zeros_length], ?_⟩
  simpa [zeros_length] using hn

theorem DynRep.more {b pre layer} (cfg : Cfg) (h : DynRep cfg b pre layer) {n : Nat}
    (hn : pre.length + layer.length + n ≤ cfg.isizeMax) :
    ∃ b', Dynamic.more cfg n b = (.ok (), b') ∧ DynRep cfg b' pre (layer ++ zeros n) := by
  have hb := h.bound
  have hm := cfg.width
  have hl : b.inner.length = pre.length + layer.length := by rw [h.inner]; simp
  have hl2 := h.length
  unfold Dynamic.more
  simp only []
  rw [addUsize_ok (by omega)]
  simp only []
  rw [vecResize_grow (by omega)]
  simp only []
  rw [addUsize_ok (by omega)]
  refine ⟨_, rfl, by simp [h.inner], h.offset, by simp [zeros_length, h.length], ?_⟩
  simp [zeros_length]; omega

theorem SliceRep.new {cfg : Cfg} {s : Bytes} (h : s.length ≤ cfg.isizeMax) : SliceRep cfg (Slice.new s) [] [] s :=
  ⟨rfl, rfl, rfl, rfl, h⟩

theorem SliceRep.total {cfg : Cfg} {b pre layer tail} (h : SliceRep cfg b pre layer tail) :
    b.inner.length = pre.length + layer.length + tail.length := by rw [h.inner]; simp; omega

theorem SliceRep.data {b pre layer tail} (cfg : Cfg) (h : SliceRep cfg b pre layer tail) :
    Slice.data cfg b = .ok layer := by
  have hb := h.bound
  have hl := h.total
  have hm := cfg.width
  unfold Slice.data
  rw [h.offset, h.length, addUsize_ok (by omega), h.inner]
  exact slice_middle pre layer tail

theorem SliceRep.modifyData {b pre layer tail} (cfg : Cfg) (h : SliceRep cfg b pre layer tail) {α : Type}
    (f : Mut Bytes α) (hf : (f layer).2.length = layer.length) :
    ∃ b', Slice.modifyData cfg f b = ((f layer).1, b') ∧ SliceRep cfg b' pre (f layer).2 tail := by
  unfold Slice.modifyData
  rw [h.data cfg]
  have hp : put b.inner b.offset (f layer).2 = pre ++ (f layer).2 ++ tail := by
    rw [h.inner, h.offset]; exact put_middle pre layer tail _ hf
  refine ⟨_, rfl, hp, h.offset, by rw [hf]; exact h.length, by rw [hf]; exact h.used, ?_⟩
  have := h.bound
  have := h.total
  simp only [hp]
  simp [hf]; omega

theorem SliceRep.next {b pre layer tail} (cfg : Cfg) (h : SliceRep cfg b pre layer tail) {n : Nat}
    (hn : pre.length + layer.length + n ≤ b.inner.length) :
    ∃ b', Slice.next cfg n b = (.ok (), b') ∧ SliceRep cfg b' (pre ++ layer) (zeros n) (tail.drop n) := by
  have hb := h.bound
  have hm := cfg.width
  have hl := h.total
  have hu := h.used
  unfold Slice.next
  rw [addUsize_ok (by omega)]
  simp only []
  rw [if_neg (by omega)]
  have h1 : SliceRep cfg { b with offset := b.used, length := n, used := b.used + n } (pre ++ layer)
      (tail.take n) (tail.drop n) := by
    refine ⟨?_, ?_, ?_, ?_, hb⟩
    · simp [h.inner, List.take_append_drop]
    · simp [h.used]
    · simp only [List.length_take]; omega
    · simp only [h.used, List.length_append, List.length_take]; omega
  obtain ⟨b', e1, e2⟩ := h1.modifyData cfg Slice.zeroAll (by simp [Slice.zeroAll, zeros_length])
  refine ⟨b', e1, ?_⟩
  have : (Slice.zeroAll (tail.take n)).2 = zeros n := by
    unfold Slice.zeroAll
    have : (tail.take n).length = n := by simp; omega
    simp [this]
  rwa [this] at e2

theorem SliceRep.more_empty {b pre tail} (cfg : Cfg) (h : SliceRep cfg b pre [] tail) {n : Nat}
    (hn : pre.length + n ≤ b.inner.length) :
    ∃ b', Slice.more cfg n b = (.ok (), b') ∧ SliceRep cfg b' pre (zeros n) (tail.drop n) := by
  have hb := h.bound
  have hm := cfg.width
  have hl := h.total
  have hu := h.used
  have h0 := h.length
  simp only [List.length_nil] at hl hu h0
  unfold Slice.more
  rw [addUsize_ok (by omega)]
  simp only []
  rw [if_neg (by omega), addUsize_ok (by omega)]
  simp only []
  rw [subUsize_ok (by omega)]
  simp only []
  rw [addUsize_ok (by omega)]
  simp only []
  have h1 : SliceRep cfg { b with offset := b.used, length := b.length + n, used := b.used + n } pre
      (tail.take n) (tail.drop n) := by
    refine ⟨?_, ?_, ?_, ?_, hb⟩
    · simp [h.inner, List.take_append_drop]
    · simp [hu]
    · simp only [List.length_take]; omega
    · simp only [h.used, List.length_nil, List.length_take]; omega
  have hz : (Slice.zeroFrom (b.length + n - n) (tail.take n)) = (.ok (), zeros n) := by
    unfold Slice.zeroFrom
    rw [if_pos (by omega), show b.length + n - n = 0 by omega]
    have : (tail.take n).length = n := by simp; omega
    simp [this]
  obtain ⟨b', e1, e2⟩ := h1.modifyData cfg (Slice.zeroFrom (b.length + n - n))
    (by rw [hz, zeros_length]; simp; omega)
  rw [hz] at e1 e2
  exact ⟨b', e1, e2⟩

end Verif

import Verif.Model.Ether
import Verif.Lemmas.Bits
import Verif.Samples

/-! # C10, C11: Ethernet frames -/

namespace Verif.Props
open Verif Spec

/-- C10, acceptance: exactly the buffers of at least 14 bytes; no panic. -/
theorem C10_ether_accept (b : Bytes) :
    Ether.new b = if 14 ≤ b.length then .ok b else .err .smallBuffer := by
  unfold Ether.new Ether.headerMin
  split <;> split <;> first | rfl | omega

theorem ofSlice_of_length {l : Bytes} (h : l.length = 6) :
    ∃ d, HwAddr.ofSlice l = .ok d ∧ d.octets = l := by
  match l, h with
  | [a, b, c, d, e, f], _ => exact ⟨⟨a, b, c, d, e, f⟩, rfl, rfl⟩

theorem ofSlice_octets (v : HwAddr) : HwAddr.ofSlice v.octets = .ok v := rfl

/-- C10, fields and views of an accepted frame. -/
theorem C10_ether_views (cfg : Cfg) (b : Bytes) (hb : b.length < cfg.usizeMod) (h : Ether.new b = .ok b) :
    (∃ d, Ether.destination b = .ok d ∧ d.octets = b.take 6) ∧
    (∃ s, Ether.source b = .ok s ∧ s.octets = (b.drop 6).take 6) ∧
    Ether.protocol b = .ok (EtherProtocol.ofWire (BitVec.ofNat 16 (field b 96 16))) ∧
    Ether.header b = .ok (b.take 14) ∧ Ether.payload b = .ok (b.drop 14) ∧
    Ether.asRef cfg b = .ok b ∧ Ether.headerSize b = .ok 14 ∧
    Ether.payloadSize cfg b = .ok (b.length - 14) := by
  have hl : 14 ≤ b.length := by
    rw [C10_ether_accept] at h; split at h
    · assumption
    · cases h
  have hps : Ether.payloadSize cfg b = .ok (b.length - 14) := by
    unfold Ether.payloadSize; exact subUsize_ok hl
  refine ⟨?_, ?_, ?_, ?_, ?_, ?_, rfl, hps⟩
  · unfold Ether.destination
    rw [slice_ok (by omega) (by omega)]
    obtain ⟨d, h1, h2⟩ := ofSlice_of_length (l := (b.take 6).drop 0) (by simp; omega)
    exact ⟨d, by simpa using h1, by simpa using h2⟩
  · unfold Ether.source
    rw [slice_ok (by omega) (by omega)]
    obtain ⟨d, h1, h2⟩ := ofSlice_of_length (l := (b.take 12).drop 6) (by simp; omega)
    refine ⟨d, h1, ?_⟩
    rw [h2, List.drop_take]
  · unfold Ether.protocol
    rw [readU16At_field (k := 12) (by omega)]; rfl
  · simp [Ether.header, Ether.split, splitAt_ok hl]
  · simp [Ether.payload, Ether.split, splitAt_ok hl]
  · unfold Ether.asRef Ether.size
    rw [hps]
    simp only [Ether.headerSize, Outcome.ok_bind]
    rw [addUsize_ok (by omega)]
    simp only [Outcome.ok_bind]
    rw [sliceTo_ok (by omega), List.take_of_length_le (by omega)]

example : Ether.new (zeros 60) = .ok (zeros 60) := by decide

/-- C11: the three setters succeed on every accepted frame, change exactly their field, and the getter
returns the value. -/
theorem C11_ether_setters (b : Bytes) (h : Ether.new b = .ok b) :
    (∀ v, ∃ b', Ether.setDestination v b = (.ok (), b') ∧ SetsField b b' 0 48 (beNat v.octets) ∧
      Ether.destination b' = .ok v) ∧
    (∀ v, ∃ b', Ether.setSource v b = (.ok (), b') ∧ SetsField b b' 48 48 (beNat v.octets) ∧
      Ether.source b' = .ok v) ∧
    (∀ v : EtherProtocol, ∃ b', Ether.setProtocol v b = (.ok (), b') ∧
      SetsField b b' 96 16 v.toWire.toNat ∧
      Ether.protocol b' = .ok (EtherProtocol.ofWire v.toWire)) := by
  have hl : 14 ≤ b.length := by
    rw [C10_ether_accept] at h; split at h
    · assumption
    · cases h
  refine ⟨fun v => ⟨_, copyRange_ok rfl (by omega), setsField_put (off := 0) (bs := v.octets) ?_, ?_⟩,
    fun v => ⟨_, copyRange_ok rfl (by omega), setsField_put (off := 6) (bs := v.octets) ?_, ?_⟩,
    fun v => ⟨_, writeU16_ok (by omega), setsField_put16 (off := 12) (by omega), ?_⟩⟩
  · simp [HwAddr.octets]; omega
  · unfold Ether.destination
    rw [slice_put (by simp [HwAddr.octets]; omega) (by simp [HwAddr.octets])]
    rfl
  · simp [HwAddr.octets]; omega
  · unfold Ether.source
    rw [slice_put (by simp [HwAddr.octets]; omega) (by simp [HwAddr.octets])]
    rfl
  · unfold Ether.protocol
    rw [readU16At_put (by omega)]; rfl

/-- A concrete case that meets the hypotheses. -/
example := C11_ether_setters Sample.udpFrame (by decide)

end Verif.Props

import Verif.Model.V4
import Verif.Lemmas.Bits

/-! # Lemmas about `ip::v4::Packet` -/

namespace Verif
open Spec

theorem shr4_toNat (x : U8) : (x >>> 4).toNat = x.toNat / 16 := by
  simp [BitVec.toNat_ushiftRight, Nat.shiftRight_eq_div_pow]
theorem shr2_toNat (x : U8) : (x >>> 2).toNat = x.toNat / 4 := by
  simp [BitVec.toNat_ushiftRight, Nat.shiftRight_eq_div_pow]
theorem and15_toNat (x : U8) : (x &&& 0b1111#8).toNat = x.toNat % 16 := by
  have : (x &&& 0b1111#8).toNat = x.toNat &&& (2 ^ 4 - 1) := by simp [BitVec.toNat_and]
  rw [this, Nat.and_two_pow_sub_one_eq_mod]
theorem and3_toNat (x : U8) : (x &&& 0b11#8).toNat = x.toNat % 4 := by
  have : (x &&& 0b11#8).toNat = x.toNat &&& (2 ^ 2 - 1) := by simp [BitVec.toNat_and]
  rw [this, Nat.and_two_pow_sub_one_eq_mod]

/-- The high nibble of byte `k`. -/
theorem field_hi4 (b : Bytes) (k : Nat) : field b (8 * k) 4 = (b.getD k 0#8).toNat / 16 := by
  have h := field_in_byte b k 0 4 (by omega)
  have := (b.getD k 0#8).isLt
  simp only [Nat.add_zero] at h
  rw [h]; simp; omega

theorem field_lo4 (b : Bytes) (k : Nat) : field b (8 * k + 4) 4 = (b.getD k 0#8).toNat % 16 := by
  have h := field_in_byte b k 4 4 (by omega)
  rw [h]; simp

namespace V4

theorem version_field {b : Bytes} (h : 0 < b.length) :
    version b = .ok (BitVec.ofNat 8 (field b 0 4)) := by
  have := field_hi4 b 0
  simp only [Nat.mul_zero] at this
  unfold version
  rw [idx_ok h, this]
  simp only [Outcome.ok_bind]
  congr 1
  apply BitVec.eq_of_toNat_eq
  rw [shr4_toNat]
  have := (b.getD 0 0#8).isLt
  simp; omega

theorem ihl_field {b : Bytes} (h : 0 < b.length) : ihl b = .ok (BitVec.ofNat 8 (field b 4 4)) := by
  have := field_lo4 b 0
  simp only [Nat.mul_zero, Nat.zero_add] at this
  unfold ihl
  rw [idx_ok h, this]
  simp only [Outcome.ok_bind]
  congr 1
  apply BitVec.eq_of_toNat_eq
  rw [and15_toNat]
  have := (b.getD 0 0#8).isLt
  simp; omega

theorem ihl_toNat (b : Bytes) : (BitVec.ofNat 8 (field b 4 4)).toNat = field b 4 4 := by
  have := field_lt b 4 4
  simp only [BitVec.toNat_ofNat]; omega

theorem length_field {b : Bytes} (h : 4 ≤ b.length) :
    V4.length b = .ok (BitVec.ofNat 16 (field b 16 16)) := readU16At_field (k := 2) h

theorem length_toNat (b : Bytes) : (BitVec.ofNat 16 (field b 16 16)).toNat = field b 16 16 :=
  ofNat_field_toNat b 16 16

/-- What `no_payload` requires, in terms of the RFC 791 fields. -/
structure HeaderOk (b : Bytes) : Prop where
  long : 20 ≤ b.length
  version : field b 0 4 = 4
  header : field b 4 4 * 4 ≤ b.length

/-- What `new` requires. -/
structure PacketOk (b : Bytes) : Prop extends HeaderOk b where
  total : field b 16 16 ≤ b.length

theorem noPayload_eq (b : Bytes) : noPayload b =
    if b.length < 20 then .err .smallBuffer
    else if field b 0 4 ≠ 4 then .err .invalidPacket
    else if b.length < field b 4 4 * 4 then .err .smallBuffer
    else .ok b := by
  unfold noPayload headerMin
  by_cases h : b.length < 20
  · simp [h]
  · rw [if_neg h, if_neg h, idx_ok (by omega), ihl_field (by omega)]
    simp only [Outcome.ok_bind, ihl_toNat]
    have hv := field_hi4 b 0
    simp only [Nat.mul_zero] at hv
    have : ((b.getD 0 0#8) >>> 4 ≠ 4#8) ↔ field b 0 4 ≠ 4 := by
      rw [hv, ← shr4_toNat]
      constructor
      · intro h h'; exact h (BitVec.eq_of_toNat_eq h')
      · intro h h'; exact h (by rw [h']; rfl)
    simp only [this]

theorem noPayload_ok_iff {b p : Bytes} : noPayload b = .ok p ↔ p = b ∧ HeaderOk b := by
  rw [noPayload_eq]
  constructor
  · intro h
    split at h
    · cases h
    · split at h
      · cases h
      · split at h
        · cases h
        · cases h; exact ⟨rfl, by omega, by omega, by omega⟩
  · rintro ⟨rfl, h⟩
    rw [if_neg (by have := h.long; omega), if_neg (by have := h.version; omega),
      if_neg (by have := h.header; omega)]

theorem new_eq (b : Bytes) : V4.new b =
    if b.length < 20 then .err .smallBuffer
    else if field b 0 4 ≠ 4 then .err .invalidPacket
    else if b.length < field b 4 4 * 4 ∨ b.length < field b 16 16 then .err .smallBuffer
    else .ok b := by
  unfold V4.new
  rw [noPayload_eq]
  by_cases h : b.length < 20
  · simp [h]
  · rw [if_neg h, if_neg h]
    by_cases h1 : field b 0 4 ≠ 4
    · simp [h1]
    · rw [if_neg h1, if_neg h1]
      by_cases h2 : b.length < field b 4 4 * 4
      · simp [h2]
      · rw [if_neg h2]
        simp only [Outcome.ok_bind, length_field (show 4 ≤ b.length by omega), length_toNat]
        simp [h2]

theorem new_ok_iff {b p : Bytes} : V4.new b = .ok p ↔ p = b ∧ PacketOk b := by
  rw [new_eq]
  constructor
  · intro h
    split at h
    · cases h
    · split at h
      · cases h
      · split at h
        · cases h
        · cases h; exact ⟨rfl, ⟨by omega, by omega, by omega⟩, by omega⟩
  · rintro ⟨rfl, h⟩
    rw [if_neg (by have := h.long; omega), if_neg (by have := h.version; omega),
      if_neg (by have := h.header; have := h.total; omega)]

theorem payloadSize_eq {b : Bytes} (h : 4 ≤ b.length) :
    payloadSize b = .ok (field b 16 16 - field b 4 4 * 4) := by
  unfold payloadSize
  rw [length_field h, ihl_field (by omega)]
  simp only [Outcome.ok_bind, length_toNat, ihl_toNat]

theorem headerSize_eq {b : Bytes} (h : 4 ≤ b.length) : headerSize b = .ok (field b 4 4 * 4) := by
  unfold headerSize
  rw [ihl_field (by omega)]
  simp only [Outcome.ok_bind, ihl_toNat]

theorem split_eq {b : Bytes} (h : 4 ≤ b.length) (hh : field b 4 4 * 4 ≤ b.length) :
    split b = .ok (b.take (field b 4 4 * 4),
      (b.drop (field b 4 4 * 4)).take (field b 16 16 - field b 4 4 * 4)) := by
  unfold split
  rw [ihl_field (by omega), payloadSize_eq h]
  simp only [Outcome.ok_bind, ihl_toNat]
  by_cases h1 : b.length < field b 4 4 * 4 + (field b 16 16 - field b 4 4 * 4)
  · rw [if_pos h1]
    rw [splitAt_ok hh, List.take_of_length_le (l := b.drop _) (by simp; omega)]
  · rw [if_neg h1, sliceTo_ok (by omega)]
    simp only [Outcome.ok_bind]
    rw [splitAt_ok (by rw [List.length_take]; omega), List.take_take, Nat.min_eq_left (by omega),
      List.drop_take]
    congr 3
    omega

theorem header_eq {b : Bytes} (h : 4 ≤ b.length) (hh : field b 4 4 * 4 ≤ b.length) :
    header b = .ok (b.take (field b 4 4 * 4)) := by
  simp [header, split_eq h hh]

theorem payload_eq {b : Bytes} (h : 4 ≤ b.length) (hh : field b 4 4 * 4 ≤ b.length) :
    payload b = .ok ((b.drop (field b 4 4 * 4)).take (field b 16 16 - field b 4 4 * 4)) := by
  simp [payload, split_eq h hh]

/-- A header setter that writes `bs` at `off` inside the header. -/
theorem onHeader_split {f : Mut Bytes Unit} {b : Bytes} {off : Nat} {bs : Bytes}
    (h : 4 ≤ b.length) (hh : field b 4 4 * 4 ≤ b.length) (hw : off + bs.length ≤ field b 4 4 * 4)
    (hf : ∀ c : Bytes, off + bs.length ≤ c.length → f c = (.ok (), put c off bs)) :
    onHeader split f b = (.ok (), put b off bs) :=
  onHeader_put (split_eq h hh) hh hw (hf _ (by rw [List.length_take]; omega))

theorem setChecksum_eq {b : Bytes} {v : U16} (h : 4 ≤ b.length) (hh : field b 4 4 * 4 ≤ b.length)
    (hw : 12 ≤ field b 4 4 * 4) : setChecksum v b = (.ok (), put b 10 (be16 v)) :=
  onHeader_split h hh (by simpa [be16] using hw) (fun _ h => writeU16_ok h)

end V4
end Verif

import Verif.Lemmas.Checksum

/-! # Lemmas about `udp::Packet` and `tcp::Packet` -/

namespace Verif
open Spec

namespace Udp

theorem length_field {b : Bytes} (h : 6 ≤ b.length) :
    Udp.length b = .ok (BitVec.ofNat 16 (field b 32 16)) := readU16At_field (k := 4) h

theorem payloadSize_eq {b : Bytes} (h : 8 ≤ b.length) : payloadSize b = .ok (field b 32 16 - 8) := by
  unfold payloadSize
  rw [length_field (by omega)]
  simp only [Outcome.ok_bind, ofNat_field_toNat]

theorem noPayload_eq (b : Bytes) :
    noPayload b = if b.length < 8 then .err .smallBuffer else .ok b := rfl

theorem new_eq (b : Bytes) : Udp.new b =
    if b.length < 8 ∨ b.length < field b 32 16 then .err .smallBuffer else .ok b := by
  unfold Udp.new
  rw [noPayload_eq]
  by_cases h : b.length < 8
  · simp [h]
  · rw [if_neg h]
    simp only [Outcome.ok_bind, length_field (show 6 ≤ b.length by omega), ofNat_field_toNat]
    simp [h]

theorem new_ok_iff {b p : Bytes} :
    Udp.new b = .ok p ↔ p = b ∧ 8 ≤ b.length ∧ field b 32 16 ≤ b.length := by
  rw [new_eq]
  constructor
  · intro h
    split at h
    · cases h
    · cases h; exact ⟨rfl, by omega, by omega⟩
  · rintro ⟨rfl, h1, h2⟩
    rw [if_neg (by omega)]

theorem split_eq {b : Bytes} (h : 8 ≤ b.length) :
    split b = .ok (b.take 8, (b.drop 8).take (field b 32 16 - 8)) := by
  unfold split
  rw [payloadSize_eq h]
  simp only [Outcome.ok_bind]
  by_cases h1 : b.length < 8 + (field b 32 16 - 8)
  · rw [if_pos h1]
    rw [splitAt_ok h, List.take_of_length_le (l := b.drop _) (by simp; omega)]
  · rw [if_neg h1, sliceTo_ok (by omega)]
    simp only [Outcome.ok_bind]
    rw [splitAt_ok (by rw [List.length_take]; omega), List.take_take, Nat.min_eq_left (by omega),
      List.drop_take]
    congr 3
    omega

theorem onHeader_split {f : Mut Bytes Unit} {b : Bytes} {off : Nat} {bs : Bytes}
    (h : 8 ≤ b.length) (hw : off + bs.length ≤ 8)
    (hf : ∀ c : Bytes, off + bs.length ≤ c.length → f c = (.ok (), put c off bs)) :
    onHeader split f b = (.ok (), put b off bs) :=
  onHeader_put (split_eq h) h hw (hf _ (by rw [List.length_take]; omega))

theorem setSource_eq {b : Bytes} {v : U16} (h : 8 ≤ b.length) :
    setSource v b = (.ok (), put b 0 (be16 v)) :=
  onHeader_split h (by simp [be16]) (fun _ h => writeU16_ok h)
theorem setDestination_eq {b : Bytes} {v : U16} (h : 8 ≤ b.length) :
    setDestination v b = (.ok (), put b 2 (be16 v)) :=
  onHeader_split h (by simp [be16]) (fun _ h => writeU16_ok h)
theorem setChecksum_eq {b : Bytes} {v : U16} (h : 8 ≤ b.length) :
    setChecksum v b = (.ok (), put b 6 (be16 v)) :=
  onHeader_split h (by simp [be16]) (fun _ h => writeU16_ok h)

end Udp

namespace Tcp

theorem offset_field {b : Bytes} (h : 13 ≤ b.length) :
    offset b = .ok (BitVec.ofNat 8 (field b 96 4)) := by
  have := field_hi4 b 12
  simp only [Nat.reduceMul] at this
  unfold offset
  rw [idx_ok (by omega), this]
  simp only [Outcome.ok_bind]
  congr 1
  apply BitVec.eq_of_toNat_eq
  rw [shr4_toNat]
  have := (b.getD 12 0#8).isLt
  simp; omega

theorem offset_toNat (b : Bytes) : (BitVec.ofNat 8 (field b 96 4)).toNat = field b 96 4 := by
  have := field_lt b 96 4
  simp only [BitVec.toNat_ofNat]; omega

theorem new_eq (b : Bytes) : Tcp.new b =
    if b.length < 20 ∨ b.length < field b 96 4 * 4 then .err .smallBuffer else .ok b := by
  unfold Tcp.new headerMin
  by_cases h : b.length < 20
  · simp [h]
  · rw [if_neg h, offset_field (by omega)]
    simp only [Outcome.ok_bind, offset_toNat]
    simp [h]

theorem new_ok_iff {b p : Bytes} :
    Tcp.new b = .ok p ↔ p = b ∧ 20 ≤ b.length ∧ field b 96 4 * 4 ≤ b.length := by
  rw [new_eq]
  constructor
  · intro h
    split at h
    · cases h
    · cases h; exact ⟨rfl, by omega, by omega⟩
  · rintro ⟨rfl, h1, h2⟩
    rw [if_neg (by omega)]

theorem split_eq {b : Bytes} (h : 20 ≤ b.length) (hh : field b 96 4 * 4 ≤ b.length) :
    split b = .ok (b.take (field b 96 4 * 4), b.drop (field b 96 4 * 4)) := by
  unfold split
  rw [offset_field (by omega)]
  simp only [Outcome.ok_bind, offset_toNat]
  rw [splitAt_ok hh]

theorem onHeader_split {f : Mut Bytes Unit} {b : Bytes} {off : Nat} {bs : Bytes}
    (h : 20 ≤ b.length) (hh : field b 96 4 * 4 ≤ b.length) (hw : off + bs.length ≤ field b 96 4 * 4)
    (hf : ∀ c : Bytes, off + bs.length ≤ c.length → f c = (.ok (), put c off bs)) :
    onHeader split f b = (.ok (), put b off bs) :=
  onHeader_put (split_eq h hh) hh hw (hf _ (by rw [List.length_take]; omega))

/-- A segment with room for its header, and a header with room for the fixed fields. -/
structure SegOk (b : Bytes) : Prop where
  long : 20 ≤ b.length
  header : field b 96 4 * 4 ≤ b.length
  offset : 5 ≤ field b 96 4

theorem set16_eq {b : Bytes} {v : U16} {off : Nat} (h : SegOk b) (ho : off + 2 ≤ 20) :
    onHeader split (writeU16 off v) b = (.ok (), put b off (be16 v)) :=
  onHeader_split h.long h.header (by have := h.offset; simp [be16]; omega) (fun _ h => writeU16_ok h)

theorem set32_eq {b : Bytes} {v : U32} {off : Nat} (h : SegOk b) (ho : off + 4 ≤ 20) :
    onHeader split (writeU32 off v) b = (.ok (), put b off (be32 v)) :=
  onHeader_split h.long h.header (by have := h.offset; simp [be32]; omega) (fun _ h => writeU32_ok h)

/-- A write that leaves the data offset alone keeps the segment usable. -/
theorem SegOk.put {b : Bytes} (h : SegOk b) {off : Nat} {bs : Bytes} (hl : off + bs.length ≤ b.length)
    (hd : off + bs.length ≤ 12 ∨ 13 ≤ off) : SegOk (put b off bs) := by
  have hs := setsField_put hl
  have hf : field (Verif.put b off bs) 96 4 = field b 96 4 := hs.other (by omega)
  exact ⟨by rw [hs.length]; exact h.long, by rw [hs.length, hf]; exact h.header, by rw [hf]; exact h.offset⟩

end Tcp
end Verif

import Verif.Props.Checksum
import Verif.Samples

/-! # C12-C19: IPv4 packets

RFC 791 bit positions: version (0,4), IHL (4,4), DSCP (8,6), ECN (14,2), total length (16,16),
identification (32,16), reserved/DF/MF bits 48/49/50, fragment offset (51,13), TTL (64,8),
protocol (72,8), header checksum (80,16), source (96,32), destination (128,32). -/

namespace Verif.Props
open Verif Spec

/-! ## C12 -/

/-- C12 for `no_payload`, on every byte string. -/
theorem C12_v4_no_payload_accept (b : Bytes) : V4.noPayload b =
    if b.length < 20 then .err .smallBuffer
    else if field b 0 4 ≠ 4 then .err .invalidPacket
    else if b.length < 4 * field b 4 4 then .err .smallBuffer
    else .ok b := by
  rw [V4.noPayload_eq, Nat.mul_comm]

/-- C12 for `new`, on every byte string. -/
theorem C12_v4_new_accept (b : Bytes) : V4.new b =
    if b.length < 20 then .err .smallBuffer
    else if field b 0 4 ≠ 4 then .err .invalidPacket
    else if b.length < 4 * field b 4 4 ∨ b.length < field b 16 16 then .err .smallBuffer
    else .ok b := by
  rw [V4.new_eq, Nat.mul_comm]

/-! ## C14 (and the total accessors of C13) -/

theorem octets4 {b : Bytes} {k : Nat} (h : k + 4 ≤ b.length) (a : Ipv4Addr)
    (ha : a = ⟨b.getD k 0#8, b.getD (k + 1) 0#8, b.getD (k + 2) 0#8, b.getD (k + 3) 0#8⟩) :
    a.octets = (b.drop k).take 4 := by
  subst ha; rw [take4_drop h]; rfl

/-- C14: every accessor except the MORE_FRAGMENTS flag reads its RFC 791 field, on
every buffer of at least 20 bytes (in particular every accepted packet). -/
theorem C14_v4_fields (b : Bytes) (h : 20 ≤ b.length) :
    V4.version b = .ok (BitVec.ofNat 8 (field b 0 4)) ∧
    V4.ihl b = .ok (BitVec.ofNat 8 (field b 4 4)) ∧
    V4.dscp b = .ok (BitVec.ofNat 8 (field b 8 6)) ∧
    V4.ecn b = .ok (BitVec.ofNat 8 (field b 14 2)) ∧
    V4.length b = .ok (BitVec.ofNat 16 (field b 16 16)) ∧
    V4.id b = .ok (BitVec.ofNat 16 (field b 32 16)) ∧
    V4.offset b = .ok (BitVec.ofNat 16 (field b 51 13)) ∧
    V4.ttl b = .ok (BitVec.ofNat 8 (field b 64 8)) ∧
    V4.protocol b = .ok (IpProtocol.ofWire (BitVec.ofNat 8 (field b 72 8))) ∧
    V4.checksum b = .ok (BitVec.ofNat 16 (field b 80 16)) ∧
    (∃ a, V4.source b = .ok a ∧ a.octets = (b.drop 12).take 4) ∧
    (∃ a, V4.destination b = .ok a ∧ a.octets = (b.drop 16).take 4) := by
  refine ⟨V4.version_field (by omega), V4.ihl_field (by omega), ?_, ?_, V4.length_field (by omega),
    readU16At_field (k := 4) (by omega), ?_, idx_field (k := 8) (by omega), ?_,
    readU16At_field (k := 10) (by omega), ⟨_, V4.source_eq h, octets4 (by omega) _ rfl⟩,
    ⟨_, V4.destination_eq h, octets4 (by omega) _ rfl⟩⟩
  · have hf := field_in_byte b 1 0 6 (by omega)
    have := (b.getD 1 0#8).isLt
    simp only [Nat.mul_one, Nat.add_zero] at hf
    unfold V4.dscp
    rw [idx_ok (by omega), hf]
    simp only [Outcome.ok_bind, Outcome.ok.injEq]
    apply BitVec.eq_of_toNat_eq
    rw [shr2_toNat]
    simp; omega
  · have hf := field_in_byte b 1 6 2 (by omega)
    have := (b.getD 1 0#8).isLt
    simp only [Nat.mul_one, Nat.reduceAdd] at hf
    unfold V4.ecn
    rw [idx_ok (by omega), hf]
    simp only [Outcome.ok_bind, Outcome.ok.injEq]
    apply BitVec.eq_of_toNat_eq
    rw [and3_toNat]
    simp; omega
  · unfold V4.offset
    rw [readU16At_field (k := 6) (by omega)]
    simp only [Outcome.ok_bind, Outcome.ok.injEq]
    have h1 := field_add b 48 3 13
    have h2 := field_lt b 51 13
    have h3 := ofNat_field_toNat b 48 16
    simp only [Nat.reduceAdd] at h1
    apply BitVec.eq_of_toNat_eq
    have : (BitVec.ofNat 16 (field b (8 * 6) 16) &&& 0x1fff#16).toNat
        = (BitVec.ofNat 16 (field b (8 * 6) 16)).toNat &&& (2 ^ 13 - 1) := by simp [BitVec.toNat_and]
    rw [this, Nat.and_two_pow_sub_one_eq_mod]
    simp only [Nat.reduceMul, h3, BitVec.toNat_ofNat]
    omega
  · unfold V4.protocol
    rw [idx_field (k := 9) (by omega)]; rfl

/-- A concrete case that meets the hypotheses. -/
example := C14_v4_fields Sample.udpPacket (by decide)

/-! ### `flags()` -/

theorem flagBits (w : U16) : (w >>> 13).toNat = w.toNat / 8192 := by
  simp [BitVec.toNat_ushiftRight, Nat.shiftRight_eq_div_pow]

theorem field3 (b : Bytes) : field b 48 3 = 4 * (bitAt b 48).toNat + 2 * (bitAt b 49).toNat + (bitAt b 50).toNat := by
  simp [field]; omega

theorem v4_flags_exact (b : Bytes) (h : 8 ≤ b.length) :
    if bitAt b 50 = true then V4.flags b = .panic
    else ∃ f, V4.flags b = .ok f ∧ f.contains .dontFragment = bitAt b 49 ∧
      f.contains .moreFragments = bitAt b 48 := by
  have h1 := field_add b 48 3 13
  have h2 := field_lt b 51 13
  have h3 := ofNat_field_toNat b 48 16
  have h4 := field3 b
  simp only [Nat.reduceAdd] at h1
  have hv : (BitVec.ofNat 16 (field b 48 16)) >>> 13 = BitVec.ofNat 16 (field b 48 3) := by
    apply BitVec.eq_of_toNat_eq
    rw [flagBits, h3]
    have := field_lt b 48 3
    simp; omega
  unfold V4.flags
  rw [readU16At_field (k := 6) (by omega)]
  simp only [Nat.reduceMul, Outcome.ok_bind, hv, h4]
  cases h50 : bitAt b 50 <;> cases h49 : bitAt b 49 <;> cases h48 : bitAt b 48 <;>
    simp only [Bool.toNat_true, Bool.toNat_false, if_true, Bool.false_eq_true, if_false] <;>
    first
      | rfl
      | exact ⟨_, rfl, by decide, by decide⟩

/-- What `flags()` does on every buffer of at least 20 bytes: it panics when the MF bit (50) is set;
otherwise the value called DONT_FRAGMENT is the DF bit (49) and the value called MORE_FRAGMENTS is the
reserved bit (48). -/
theorem C14_v4_flags_exact (b : Bytes) (h : 20 ≤ b.length) :
    if bitAt b 50 = true then V4.flags b = .panic
    else ∃ f, V4.flags b = .ok f ∧ f.contains .dontFragment = bitAt b 49 ∧
      f.contains .moreFragments = bitAt b 48 := v4_flags_exact b (by omega)

/-- A concrete case that meets the hypotheses. -/
example := C14_v4_flags_exact Sample.udpPacket (by decide)

/-- C14, DONT_FRAGMENT: whenever `flags()` returns, it reports the DF bit. -/
theorem C14_v4_dont_fragment (b : Bytes) (h : 20 ≤ b.length) (f : V4Flags) (hf : V4.flags b = .ok f) :
    f.contains .dontFragment = bitAt b 49 := by
  have := C14_v4_flags_exact b h
  split at this
  · rw [this] at hf; cases hf
  · obtain ⟨g, hg, h1, -⟩ := this
    rw [hg] at hf; cases hf; exact h1

/-- A concrete case that meets the hypotheses. -/
example := C14_v4_dont_fragment (put Sample.udpPacket 6 [64, 0]) (by decide) _ rfl

/-- C67 is false of the code for MORE_FRAGMENTS: an accepted packet without the MF bit reports it. -/
theorem C67_v4_more_fragments_refuted : ∃ b f, V4.new b = .ok b ∧ V4.flags b = .ok f ∧
    f.contains .moreFragments ≠ bitAt b 50 :=
  ⟨[0x45, 0, 0, 20, 0, 0, 0x80, 0, 64, 17, 0, 0, 10, 0, 0, 1, 10, 0, 0, 2], .moreFragments, by decide,
    by decide, by decide⟩

/-! ## C13 -/

/-- C13: on an accepted packet every accessor other than `flags()` and `options()`
returns; `flags()` returns when the MF bit is clear; `options()` returns when IHL is at least 5. -/
theorem C13_v4_accessors_total (cfg : Cfg) (b : Bytes) (h : V4.new b = .ok b) :
    (V4.version b).returns ∧ (V4.ihl b).returns ∧ (V4.dscp b).returns ∧ (V4.ecn b).returns ∧
    (V4.length b).returns ∧ (V4.id b).returns ∧ (V4.offset b).returns ∧ (V4.ttl b).returns ∧
    (V4.protocol b).returns ∧ (V4.checksum b).returns ∧ (V4.source b).returns ∧
    (V4.destination b).returns ∧ (V4.header b).returns ∧ (V4.payload b).returns ∧
    (V4.isValid cfg b).returns ∧ (V4.asRef b).returns ∧
    (bitAt b 50 = false → (V4.flags b).returns) ∧
    (5 ≤ field b 4 4 → V4.options b = .ok ((b.take (4 * field b 4 4)).drop 20)) := by
  have hok := (V4.new_ok_iff.1 h).2
  have hlong := hok.long; have hh := hok.header; have ht := hok.total
  obtain ⟨h1, h2, h3, h4, h5, h6, h7, h8, h9, h10, ⟨_, h11, -⟩, ⟨_, h12, -⟩⟩ := C14_v4_fields b hlong
  have ret : ∀ {α : Type} {x : Outcome α} {a : α}, x = .ok a → x.returns := by
    intro α x a hx; rw [hx]; exact fun h => by cases h
  refine ⟨ret h1, ret h2, ret h3, ret h4, ret h5, ret h6, ret h7, ret h8, ret h9, ret h10, ret h11,
    ret h12, ret (V4.header_eq (by omega) hh), ret (V4.payload_eq (by omega) hh), ?_, ?_, ?_, ?_⟩
  · unfold V4.isValid
    rw [V4.header_eq (by omega) hh, Outcome.ok_bind, V4.checksumOf_eq, Outcome.ok_bind, h10]
    exact fun h => by cases h
  · unfold V4.asRef V4.size
    rw [V4.headerSize_eq (by omega), V4.payloadSize_eq (by omega)]
    simp only [Outcome.ok_bind]
    rw [sliceTo_ok (by omega)]
    exact fun h => by cases h
  · intro hmf
    have := C14_v4_flags_exact b hlong
    rw [if_neg (by simp [hmf])] at this
    obtain ⟨f, hf, -⟩ := this
    exact ret hf
  · intro h5'
    unfold V4.options
    rw [V4.ihl_field (by omega)]
    simp only [Outcome.ok_bind, V4.ihl_toNat]
    rw [slice_ok (by omega) hh, Nat.mul_comm]

/-- A concrete case that meets the hypotheses. -/
example (cfg : Cfg) := C13_v4_accessors_total cfg Sample.udpPacket (by decide)

/-- C67 is false of the code: `flags()` panics on an ordinary fragment (MF set). -/
theorem C67_v4_flags_panic_refuted : ∃ b, V4.new b = .ok b ∧ 5 ≤ field b 4 4 ∧ V4.flags b = .panic :=
  ⟨[0x45, 0, 0, 20, 0, 0, 0x20, 0, 64, 17, 0, 0, 10, 0, 0, 1, 10, 0, 0, 2], by decide, by decide, by decide⟩

/-- C68 is false of the code: every accepted packet with IHL below 5 makes `options()` panic. -/
theorem C68_v4_options_panic (b : Bytes) (h : V4.new b = .ok b) (h5 : field b 4 4 < 5) :
    V4.options b = .panic := by
  have hlong := (V4.new_ok_iff.1 h).2.long
  unfold V4.options
  rw [V4.ihl_field (by omega)]
  simp only [Outcome.ok_bind, V4.ihl_toNat]
  unfold slice
  rw [if_neg (by omega)]

/-- A concrete case that meets the hypotheses. -/
example := C68_v4_options_panic Sample.shortPacket (by decide) (by decide)

/-- … and there is such a packet. -/
theorem C68_v4_options_refuted : ∃ b, V4.new b = .ok b ∧ V4.options b = .panic :=
  ⟨[0x44, 0, 0, 20, 0, 0, 0, 0, 64, 17, 0, 0, 10, 0, 0, 1, 10, 0, 0, 2], by decide, by decide⟩

/-! ## C15 -/

/-- C15: header, payload, `as_ref` and sizes of every accepted packet. -/
theorem C15_v4_split (b : Bytes) (h : V4.new b = .ok b) :
    V4.header b = .ok (b.take (4 * field b 4 4)) ∧
    V4.payload b = .ok ((b.drop (4 * field b 4 4)).take (field b 16 16 - 4 * field b 4 4)) ∧
    (∃ hd pl, V4.header b = .ok hd ∧ V4.payload b = .ok pl ∧ V4.asRef b = .ok (hd ++ pl) ∧
      V4.headerSize b = .ok hd.length ∧ V4.payloadSize b = .ok pl.length ∧
      hd.length = 4 * field b 4 4 ∧ pl.length = field b 16 16 - 4 * field b 4 4) := by
  have hok := (V4.new_ok_iff.1 h).2
  have hlong := hok.long; have hh := hok.header; have ht := hok.total
  rw [Nat.mul_comm 4]
  have e1 := V4.header_eq (show 4 ≤ b.length by omega) hh
  have e2 := V4.payload_eq (show 4 ≤ b.length by omega) hh
  have l1 : (b.take (field b 4 4 * 4)).length = field b 4 4 * 4 := by rw [List.length_take]; omega
  have l2 : ((b.drop (field b 4 4 * 4)).take (field b 16 16 - field b 4 4 * 4)).length
      = field b 16 16 - field b 4 4 * 4 := by rw [List.length_take, List.length_drop]; omega
  refine ⟨e1, e2, _, _, e1, e2, ?_, ?_, ?_, l1, l2⟩
  · unfold V4.asRef V4.size
    rw [V4.headerSize_eq (by omega), V4.payloadSize_eq (by omega)]
    simp only [Outcome.ok_bind]
    rw [sliceTo_ok (by omega), List.take_add]
  · rw [l1]; exact V4.headerSize_eq (by omega)
  · rw [l2]; exact V4.payloadSize_eq (by omega)

/-- A packet with link-layer padding: the padding is not payload. -/
example : V4.payload ([0x45, 0, 0, 22, 0, 0, 0, 0, 64, 17, 0, 0, 10, 0, 0, 1, 10, 0, 0, 2, 7, 8, 0, 0] : Bytes)
    = .ok [7, 8] := by decide

/-! ## C16 -/

/-- An accepted packet with a legal header length. -/
def Legal (b : Bytes) : Prop := V4.noPayload b = .ok b ∧ 5 ≤ field b 4 4

example : Legal [0x45, 0, 0, 20, 0, 0, 0, 0, 64, 17, 0, 0, 10, 0, 0, 1, 10, 0, 0, 2] := by
  unfold Legal; decide

theorem Legal.ok {b : Bytes} (h : Legal b) :
    20 ≤ b.length ∧ field b 4 4 * 4 ≤ b.length ∧ 20 ≤ field b 4 4 * 4 := by
  have hok := (V4.noPayload_ok_iff.1 h.1).2
  exact ⟨hok.long, hok.header, by have := h.2; omega⟩

theorem hdr_set {b : Bytes} (h : Legal b) {f : Mut Bytes Unit} {off : Nat} {bs : Bytes}
    (hw : off + bs.length ≤ 20)
    (hf : ∀ c : Bytes, off + bs.length ≤ c.length → f c = (.ok (), put c off bs)) :
    onHeader V4.split f b = (.ok (), put b off bs) := by
  obtain ⟨h1, h2, h3⟩ := h.ok
  exact V4.onHeader_split (by omega) h2 (by omega) hf

theorem dscpByte (old v : U8) (hv : v.toNat ≤ 63) :
    ((old &&& 0b11#8) ||| (v <<< 2)).toNat = v.toNat * 4 + old.toNat % 4 := by
  rw [BitVec.toNat_or, and3_toNat, BitVec.toNat_shiftLeft, Nat.or_comm,
    Nat.mod_eq_of_lt (by rw [Nat.shiftLeft_eq]; omega), ← Nat.shiftLeft_add_eq_or_of_lt (by omega),
    Nat.shiftLeft_eq]

theorem v4_setDscp_eq {b : Bytes} {v : U8} (h : 20 ≤ b.length) (hv : v.toNat ≤ 63) :
    V4.setDscp v b = (.ok (), put b 1 [(b.getD 1 0#8 &&& 0b11#8) ||| (v <<< 2)]) := by
  have : ¬ v > 0b111111#8 := by simp only [GT.gt, BitVec.lt_def]; simp; omega
  unfold V4.setDscp
  rw [if_neg this]
  refine (Mut.bind_ok (a := b.getD 1 0#8) (s' := b) ?_).trans (setIdx_ok (by omega))
  simp only [Mut.read, idx_ok (show 1 < b.length by omega)]

theorem v4_setDscp_sets {b : Bytes} {v : U8} (h : 20 ≤ b.length) (hv : v.toNat ≤ 63) :
    SetsField b (put b 1 [(b.getD 1 0#8 &&& 0b11#8) ||| (v <<< 2)]) 8 6 v.toNat := by
  have hx := dscpByte (b.getD 1 0#8) v hv
  have := setsField_in_byte' (b := b) (k := 1) (i := 0) (w := 6)
    (x := (b.getD 1 0#8 &&& 0b11#8) ||| (v <<< 2)) (by omega) (by omega)
    (by have := (b.getD 1 0#8).isLt; rw [hx]; simp; try omega)
    (by have := (b.getD 1 0#8).isLt; rw [hx]; simp; try omega)
  rw [hx] at this
  rwa [show (v.toNat * 4 + (b.getD 1 0#8).toNat % 4) / 2 ^ (8 - 0 - 6) % 2 ^ 6 = v.toNat by
    simp; omega] at this

/-- C16: each of these setters succeeds on every legal packet, changes exactly its RFC 791 field, and
the getter then returns the value. -/
theorem C16_v4_setters (b : Bytes) (h : Legal b) :
    (∀ v : U8, v.toNat ≤ 63 → ∃ b', V4.setDscp v b = (.ok (), b') ∧ SetsField b b' 8 6 v.toNat ∧
      V4.dscp b' = .ok v) ∧
    (∀ v : U16, ∃ b', V4.setId v b = (.ok (), b') ∧ SetsField b b' 32 16 v.toNat ∧ V4.id b' = .ok v) ∧
    (∀ v : U8, ∃ b', V4.setTtl v b = (.ok (), b') ∧ SetsField b b' 64 8 v.toNat ∧ V4.ttl b' = .ok v) ∧
    (∀ v : Ipv4Addr, ∃ b', V4.setSource v b = (.ok (), b') ∧ SetsField b b' 96 32 (beNat v.octets) ∧
      V4.source b' = .ok v) ∧
    (∀ v : Ipv4Addr, ∃ b', V4.setDestination v b = (.ok (), b') ∧
      SetsField b b' 128 32 (beNat v.octets) ∧ V4.destination b' = .ok v) ∧
    (∀ v : IpProtocol, ∃ b', V4.setProtocol v b = (.ok (), b') ∧
      SetsField b b' 72 8 v.toWire.toNat ∧ V4.protocol b' = .ok (IpProtocol.ofWire v.toWire)) ∧
    (∀ v : U16, ∃ b', V4.setChecksum v b = (.ok (), b') ∧ SetsField b b' 80 16 v.toNat ∧
      V4.checksum b' = .ok v) := by
  obtain ⟨h1, h2, h3⟩ := h.ok
  have addrGet : ∀ (v : Ipv4Addr) (k : Nat), k + 4 ≤ 20 →
      idx (put b k v.octets) k = .ok v.a ∧ idx (put b k v.octets) (k + 1) = .ok v.b ∧
      idx (put b k v.octets) (k + 2) = .ok v.c ∧ idx (put b k v.octets) (k + 3) = .ok v.d := by
    intro v k hk
    have hl : k + v.octets.length ≤ b.length := by simp [Ipv4Addr.octets]; omega
    have hll := length_put hl
    refine ⟨?_, ?_, ?_, ?_⟩ <;>
    · rw [idx_ok (by omega), getD_put hl, if_neg (by omega), if_pos (by simp [Ipv4Addr.octets]; try omega)]
      simp [Ipv4Addr.octets, Nat.add_sub_cancel_left]
  refine ⟨fun v hv => ?_, fun v => ?_, fun v => ?_, fun v => ?_, fun v => ?_, fun v => ?_, fun v => ?_⟩
  · have hs := v4_setDscp_sets h1 hv
    refine ⟨_, v4_setDscp_eq h1 hv, hs, ?_⟩
    rw [(C14_v4_fields _ (by rw [hs.length]; exact h1)).2.2.1, hs.value]
    simp
  · exact ⟨_, writeU16_ok (by omega), setsField_put16 (off := 4) (by omega), readU16At_put (by omega)⟩
  · exact ⟨_, hdr_set h (by simp) (fun c hc => setIdx_ok hc), setsField_put8 (off := 8) (by omega),
      idx_put (by omega)⟩
  · refine ⟨_, hdr_set h (bs := v.octets) (by simp [Ipv4Addr.octets]) (fun c hc => copyRange_ok rfl hc),
      setsField_put (off := 12) (by simp [Ipv4Addr.octets]; omega), ?_⟩
    obtain ⟨e1, e2, e3, e4⟩ := addrGet v 12 (by omega)
    unfold V4.source; rw [e1, e2, e3, e4]; rfl
  · refine ⟨_, hdr_set h (bs := v.octets) (by simp [Ipv4Addr.octets]) (fun c hc => copyRange_ok rfl hc),
      setsField_put (off := 16) (by simp [Ipv4Addr.octets]; omega), ?_⟩
    obtain ⟨e1, e2, e3, e4⟩ := addrGet v 16 (by omega)
    unfold V4.destination; rw [e1, e2, e3, e4]; rfl
  · refine ⟨_, hdr_set h (by simp) (fun c hc => setIdx_ok hc), setsField_put8 (off := 9) (by omega), ?_⟩
    unfold V4.protocol
    rw [idx_put (by omega)]; rfl
  · exact ⟨_, hdr_set h (by simp [be16]) (fun c hc => writeU16_ok hc), setsField_put16 (off := 10) (by omega),
      readU16At_put (by omega)⟩

/-- A concrete case that meets the hypotheses. -/
example := C16_v4_setters Sample.udpPacket ⟨by decide, by decide⟩

/-! ## C17 -/

theorem and63_toNat (x : U8) : (x &&& 0b111111#8).toNat = x.toNat % 64 := by
  have : (x &&& 0b111111#8).toNat = x.toNat &&& (2 ^ 6 - 1) := by simp [BitVec.toNat_and]
  rw [this, Nat.and_two_pow_sub_one_eq_mod]

theorem v4_setEcn_eq {b : Bytes} {v : U8} (h : 20 ≤ b.length) (hv : v.toNat ≤ 3) :
    V4.setEcn v b = (.ok (), put b 1 [(b.getD 1 0#8 &&& 0b111111#8) ||| v]) := by
  have : ¬ v > 0b11#8 := by simp only [GT.gt, BitVec.lt_def]; simp; omega
  unfold V4.setEcn
  rw [if_neg this]
  refine (Mut.bind_ok (a := b.getD 1 0#8) (s' := b) ?_).trans (setIdx_ok (by omega))
  simp only [Mut.read, idx_ok (show 1 < b.length by omega)]

theorem ecnByte (old v : U8) (hv : v.toNat ≤ 3) :
    ((old &&& 0b111111#8) ||| v).toNat = (old.toNat / 4 % 16) * 4 + ((old.toNat % 4) ||| v.toNat) := by
  have hor : (old.toNat % 4) ||| v.toNat < 2 ^ 2 := Nat.or_lt_two_pow (by omega) (by omega)
  rw [BitVec.toNat_or, and63_toNat]
  have e1 : old.toNat % 64 = (old.toNat / 4 % 16) <<< 2 ||| old.toNat % 4 := by
    rw [← Nat.shiftLeft_add_eq_or_of_lt (by omega), Nat.shiftLeft_eq]; omega
  rw [e1, Nat.or_assoc, ← Nat.shiftLeft_add_eq_or_of_lt hor, Nat.shiftLeft_eq]

theorem dscp_field (b : Bytes) : field b 8 6 = (b.getD 1 0#8).toNat / 4 := by
  have hf := field_in_byte b 1 0 6 (by omega)
  have := (b.getD 1 0#8).isLt
  simp only [Nat.mul_one, Nat.add_zero] at hf
  rw [hf]; simp; omega

theorem ecn_field (b : Bytes) : field b 14 2 = (b.getD 1 0#8).toNat % 4 := by
  have hf := field_in_byte b 1 6 2 (by omega)
  simp only [Nat.mul_one, Nat.reduceAdd] at hf
  rw [hf]; simp

/-- C77 for `set_ecn`: on every buffer it keeps only the low four DSCP bits and ORs into the old ECN, so
it is right exactly when DSCP is below 16 and the old ECN bits are among the new ones. -/
theorem C77_v4_set_ecn_exact (b : Bytes) (h : 20 ≤ b.length) (v : U8) (hv : v.toNat ≤ 3) :
    ∃ b', V4.setEcn v b = (.ok (), b') ∧
      field b' 8 6 = field b 8 6 % 16 ∧ field b' 14 2 = (field b 14 2 ||| v.toNat) ∧
      (SetsField b b' 14 2 v.toNat ↔ field b 8 6 < 16 ∧ (field b 14 2 ||| v.toNat) = v.toNat) := by
  have hl : 1 + [(b.getD 1 0#8 &&& 0b111111#8) ||| v].length ≤ b.length := by simp; omega
  have hx := ecnByte (b.getD 1 0#8) v hv
  have hor : ((b.getD 1 0#8).toNat % 4) ||| v.toNat < 2 ^ 2 := Nat.or_lt_two_pow (by omega) (by omega)
  have h1 : (put b 1 [(b.getD 1 0#8 &&& 0b111111#8) ||| v]).getD 1 0#8
      = (b.getD 1 0#8 &&& 0b111111#8) ||| v := by
    rw [getD_put hl]; simp
  have d : field (put b 1 [(b.getD 1 0#8 &&& 0b111111#8) ||| v]) 8 6 = field b 8 6 % 16 := by
    rw [dscp_field, dscp_field, h1, hx]; omega
  have e : field (put b 1 [(b.getD 1 0#8 &&& 0b111111#8) ||| v]) 14 2 = (field b 14 2 ||| v.toNat) := by
    rw [ecn_field, ecn_field, h1, hx]; omega
  refine ⟨_, v4_setEcn_eq h hv, d, e, ?_⟩
  constructor
  · intro hs
    have := hs.other (s' := 8) (w' := 6) (by omega)
    have hlt := field_lt b 8 6
    refine ⟨by omega, ?_⟩
    rw [← e]; exact hs.value
  · rintro ⟨ha, hb⟩
    rw [dscp_field] at ha
    rw [ecn_field] at hb
    have := setsField_in_byte' (b := b) (k := 1) (i := 6) (w := 2)
      (x := (b.getD 1 0#8 &&& 0b111111#8) ||| v) (by omega) (by omega)
      (by rw [hx, hb]; simp only [Nat.reduceSub]; omega)
      (by rw [hx, hb]; simp only [Nat.reduceSub]; omega)
    rw [hx, hb] at this
    rwa [show ((b.getD 1 0#8).toNat / 4 % 16 * 4 + v.toNat) / 2 ^ (8 - 6 - 2) % 2 ^ 2 = v.toNat by
      simp; omega] at this

/-- A concrete case that meets the hypotheses. -/
example := C77_v4_set_ecn_exact Sample.udpPacket (by decide) 2 (by decide)

/-- C17 is false of the code for `set_ecn`: expedited forwarding (DSCP 46) is destroyed. -/
theorem C17_v4_set_ecn_refuted : ∃ (b : Bytes) (v : U8), Legal b ∧ v.toNat ≤ 3 ∧
    ∀ b', V4.setEcn v b = (.ok (), b') → ¬ SetsField b b' 14 2 v.toNat := by
  refine ⟨[0x45, 0xb8, 0, 20, 0, 0, 0, 0, 64, 17, 0, 0, 10, 0, 0, 1, 10, 0, 0, 2], 1, by unfold Legal; decide,
    by decide, ?_⟩
  intro b' hb' hs
  obtain ⟨b'', h1, -, -, h2⟩ := C77_v4_set_ecn_exact
    [0x45, 0xb8, 0, 20, 0, 0, 0, 0, 64, 17, 0, 0, 10, 0, 0, 1, 10, 0, 0, 2] (by decide) 1 (by decide)
  rw [h1] at hb'
  cases hb'
  exact absurd (h2.1 hs).1 (by decide)

/-- `set_flags` and `set_offset` overwrite the whole 16-bit word (flags and fragment offset together)
with the unshifted value, on every legal packet. -/
theorem C77_v4_set_flags_offset_exact (b : Bytes) (h : Legal b) :
    (∀ f : V4Flags, ∃ b', V4.setFlags f b = (.ok (), b') ∧ SetsField b b' 48 16 f.bits.toNat) ∧
    (∀ v : U16, ∃ b', V4.setOffset v b = (.ok (), b') ∧ SetsField b b' 48 16 v.toNat) := by
  obtain ⟨h1, h2, h3⟩ := h.ok
  exact ⟨fun f => ⟨_, hdr_set h (by simp [be16]) (fun c hc => writeU16_ok hc), setsField_put16 (off := 6) (by omega)⟩,
    fun f => ⟨_, hdr_set h (by simp [be16]) (fun c hc => writeU16_ok hc), setsField_put16 (off := 6) (by omega)⟩⟩

/-- A concrete case that meets the hypotheses. -/
example := C77_v4_set_flags_offset_exact Sample.udpPacket ⟨by decide, by decide⟩

theorem setsField_sub {b b' : Bytes} {s w s' w' v v' : Nat} (h : SetsField b b' s w v)
    (hs : s ≤ s') (hw : s' + w' ≤ s + w) (hv : field b' s' w' = v')
    (hl : field b' s (s' - s) = field b s (s' - s))
    (hr : field b' (s' + w') (s + w - (s' + w')) = field b (s' + w') (s + w - (s' + w'))) :
    SetsField b b' s' w' v' := by
  refine ⟨h.length, hv, ?_⟩
  have bits : ∀ (n s : Nat), field b' s n = field b s n → ∀ i, s ≤ i → i < s + n → bitAt b' i = bitAt b i := by
    intro n
    induction n with
    | zero => intro s _ i h1 h2; omega
    | succ n ih =>
      intro s hf i h1 h2
      rw [field, field] at hf
      have hb : (bitAt b' (s + n)).toNat = (bitAt b (s + n)).toNat := by
        have t1 : (bitAt b' (s + n)).toNat ≤ 1 := by cases bitAt b' (s + n) <;> simp
        have t2 : (bitAt b (s + n)).toNat ≤ 1 := by cases bitAt b (s + n) <;> simp
        omega
      rcases Nat.lt_or_ge i (s + n) with h3 | h3
      · exact ih s (by omega) i h1 h3
      · have : i = s + n := by omega
        subst this
        cases h4 : bitAt b' (s + n) <;> cases h5 : bitAt b (s + n) <;> simp_all
  intro i hi
  by_cases hin : i < s ∨ s + w ≤ i
  · exact h.frame i hin
  · rcases hi with hi | hi
    · exact bits _ s hl i (by omega) (by omega)
    · exact bits _ (s' + w') hr i (by omega) (by omega)

/-- C77 for `set_offset`: right exactly when the flag bits were clear and the value fits in 13 bits. -/
theorem C77_v4_set_offset_exact (b : Bytes) (h : Legal b) (v : U16) :
    ∃ b', V4.setOffset v b = (.ok (), b') ∧
      (SetsField b b' 51 13 v.toNat ↔ field b 48 3 = 0 ∧ v.toNat < 8192) := by
  obtain ⟨b', h1, h2⟩ := (C77_v4_set_flags_offset_exact b h).2 v
  refine ⟨b', h1, ?_⟩
  have hv := h2.value
  have ha := field_add b' 48 3 13
  have hlt := field_lt b' 51 13
  simp only [Nat.reduceAdd] at ha
  constructor
  · intro hs
    have := hs.other (s' := 48) (w' := 3) (by omega)
    have hv' := hs.value
    omega
  · rintro ⟨hf, hlt'⟩
    refine setsField_sub h2 (by omega) (by omega) (by omega) ?_ (by rfl)
    change field b' 48 3 = field b 48 3
    omega

/-- A concrete case that meets the hypotheses. -/
example := C77_v4_set_offset_exact Sample.udpPacket ⟨by decide, by decide⟩

/-- C77 for `set_flags` (the flags are the bits 48..50, `DONT_FRAGMENT = 0b010`): right exactly when no
flag is given and the old fragment offset is zero. -/
theorem C77_v4_set_flags_exact (b : Bytes) (h : Legal b) (f : V4Flags) :
    ∃ b', V4.setFlags f b = (.ok (), b') ∧
      (SetsField b b' 48 3 f.bits.toNat ↔ f.bits = 0#16 ∧ field b 51 13 = 0) := by
  obtain ⟨b', h1, h2⟩ := (C77_v4_set_flags_offset_exact b h).1 f
  refine ⟨b', h1, ?_⟩
  have hv := h2.value
  have ha := field_add b' 48 3 13
  have hlt := field_lt b' 51 13
  simp only [Nat.reduceAdd] at ha
  have hf8 : f.bits.toNat < 8 := by
    have := f.valid
    have h7 : f.bits = f.bits &&& 0b110#16 := by
      apply BitVec.eq_of_getLsbD_eq
      intro i hi
      have := congrArg (fun x => x.getLsbD i) this
      simp only [BitVec.getLsbD_and, BitVec.getLsbD_not, hi, decide_true, Bool.true_and] at this ⊢
      cases ha : f.bits.getLsbD i <;> cases hb : (0b110#16).getLsbD i <;> simp_all
    rw [h7, BitVec.toNat_and]
    exact Nat.lt_of_le_of_lt Nat.and_le_right (by decide)
  constructor
  · intro hs
    have ho := hs.other (s' := 51) (w' := 13) (by omega)
    have hv' := hs.value
    have h0 : f.bits.toNat = 0 := by omega
    exact ⟨BitVec.eq_of_toNat_eq h0, by omega⟩
  · rintro ⟨hf, hoff⟩
    have : f.bits.toNat = 0 := by rw [hf]; rfl
    refine setsField_sub h2 (by omega) (by omega) (by omega) (by rfl) ?_
    change field b' 51 13 = field b 51 13
    omega

/-- A concrete case that meets the hypotheses. -/
example := C77_v4_set_flags_exact Sample.udpPacket ⟨by decide, by decide⟩

/-- C17 is false of the code for `set_flags`: DONT_FRAGMENT is never stored in the DF bit. -/
theorem C17_v4_set_flags_refuted (b : Bytes) (h : Legal b) :
    ∃ b', V4.setFlags .dontFragment b = (.ok (), b') ∧ bitAt b' 49 = false ∧
      ¬ SetsField b b' 48 3 V4Flags.dontFragment.bits.toNat := by
  obtain ⟨b', h1, h2⟩ := C77_v4_set_flags_exact b h .dontFragment
  refine ⟨b', h1, ?_, fun hs => absurd (h2.1 hs).1 (by decide)⟩
  obtain ⟨b'', h3, h4⟩ := (C77_v4_set_flags_offset_exact b h).1 .dontFragment
  rw [h1] at h3; cases h3
  have hv := h4.value
  have ha := field_add b' 48 3 13
  simp only [Nat.reduceAdd] at ha
  have h5 := field3 b'
  have : V4Flags.dontFragment.bits.toNat = 2 := rfl
  cases hc : bitAt b' 49
  · rfl
  · rw [hc] at h5; simp at h5; omega

/-- A concrete case that meets the hypotheses. -/
example := C17_v4_set_flags_refuted Sample.udpPacket ⟨by decide, by decide⟩

/-- C17 is false of the code for `set_offset`: it clears DF. -/
theorem C17_v4_set_offset_refuted : ∃ (b : Bytes) (v : U16), Legal b ∧ v.toNat < 8192 ∧
    bitAt b 49 = true ∧ ∀ b', V4.setOffset v b = (.ok (), b') → bitAt b' 49 = false := by
  refine ⟨[0x45, 0, 0, 20, 0, 0, 0x40, 0, 64, 17, 0, 0, 10, 0, 0, 1, 10, 0, 0, 2], 1, by unfold Legal; decide,
    by decide, by decide, ?_⟩
  intro b' hb'
  have : b' = [0x45, 0, 0, 20, 0, 0, 0, 1, 64, 17, 0, 0, 10, 0, 0, 1, 10, 0, 0, 2] := by
    have h1 : V4.setOffset 1 [0x45, 0, 0, 20, 0, 0, 0x40, 0, 64, 17, 0, 0, 10, 0, 0, 1, 10, 0, 0, 2]
      = (.ok (), [0x45, 0, 0, 20, 0, 0, 0, 1, 64, 17, 0, 0, 10, 0, 0, 1, 10, 0, 0, 2]) := by decide
    rw [h1] at hb'; cases hb'; rfl
  subst this; decide

/-! ## C18 -/

/-- C18: `set_dscp` and `set_ecn` refuse out-of-range values on every buffer and
leave it unchanged. Not part of this claim: `set_offset`. -/
theorem C18_v4_range_checks (b : Bytes) (v : U8) :
    (63 < v.toNat → V4.setDscp v b = (.err .invalidValue, b)) ∧
    (3 < v.toNat → V4.setEcn v b = (.err .invalidValue, b)) := by
  constructor
  · intro h
    unfold V4.setDscp
    rw [if_pos (by simp only [GT.gt, BitVec.lt_def]; simpa using h)]; rfl
  · intro h
    unfold V4.setEcn
    rw [if_pos (by simp only [GT.gt, BitVec.lt_def]; simpa using h)]; rfl

/-- C17 is false of the code for `set_offset`: every out-of-range value is written, on every legal packet. -/
theorem C17_v4_set_offset_range_refuted (b : Bytes) (h : Legal b) (v : U16) (hv : 0x1fff < v.toNat) :
    ∃ b', V4.setOffset v b = (.ok (), b') ∧ field b' 48 16 = v.toNat :=
  let ⟨b', h1, h2⟩ := (C77_v4_set_flags_offset_exact b h).2 v
  have _ := hv
  ⟨b', h1, h2.value⟩

/-- A concrete case that meets the hypotheses. -/
example := C17_v4_set_offset_range_refuted Sample.udpPacket ⟨by decide, by decide⟩ 9000 (by decide)

/-! ## C19 -/

theorem Legal.put {b : Bytes} (h : Legal b) {off : Nat} {bs : Bytes} (ho : 1 ≤ off)
    (hl : off + bs.length ≤ b.length) : Legal (put b off bs) := by
  have hok := (V4.noPayload_ok_iff.1 h.1).2
  have hs := setsField_put hl
  have e1 : field (Verif.put b off bs) 0 4 = field b 0 4 := hs.other (by omega)
  have e2 : field (Verif.put b off bs) 4 4 = field b 4 4 := hs.other (by omega)
  exact ⟨V4.noPayload_ok_iff.2 ⟨rfl, by rw [hs.length]; exact hok.long, by rw [e1]; exact hok.version,
    by rw [e2, hs.length]; exact hok.header⟩, by rw [e2]; exact h.2⟩

/-- Every setter of `Checked` keeps a legal packet legal, whatever it returns, and does not panic. -/
theorem v4_set_legal (op : V4.Set) (b : Bytes) (h : Legal b) :
    (op.run b).1 ≠ .panic ∧ Legal (op.run b).2 := by
  obtain ⟨h1, h2, h3⟩ := h.ok
  have fin : ∀ {f : Mut Bytes Unit} {off : Nat} {bs : Bytes}, f b = (.ok (), put b off bs) → 1 ≤ off →
      off + bs.length ≤ b.length → (f b).1 ≠ .panic ∧ Legal (f b).2 := by
    intro f off bs he ho hl
    rw [he]; exact ⟨(fun hp => by cases hp), h.put ho hl⟩
  cases op with
  | dscp v =>
    by_cases hv : v.toNat ≤ 63
    · exact fin (v4_setDscp_eq h1 hv) (by omega) (by simp; omega)
    · change (V4.setDscp v b).1 ≠ .panic ∧ Legal (V4.setDscp v b).2
      rw [(C18_v4_range_checks b v).1 (by omega)]; exact ⟨(fun hp => by cases hp), h⟩
  | ecn v =>
    by_cases hv : v.toNat ≤ 3
    · exact fin (v4_setEcn_eq h1 hv) (by omega) (by simp; omega)
    · change (V4.setEcn v b).1 ≠ .panic ∧ Legal (V4.setEcn v b).2
      rw [(C18_v4_range_checks b v).2 (by omega)]; exact ⟨(fun hp => by cases hp), h⟩
  | id v => exact fin (writeU16_ok (by omega)) (by omega) (by simp [be16]; omega)
  | flags v => exact fin (hdr_set h (by simp [be16]) (fun c hc => writeU16_ok hc)) (by omega) (by simp [be16]; omega)
  | offset v => exact fin (hdr_set h (by simp [be16]) (fun c hc => writeU16_ok hc)) (by omega) (by simp [be16]; omega)
  | ttl v => exact fin (hdr_set h (by simp) (fun c hc => setIdx_ok hc)) (by omega) (by simp; omega)
  | source v =>
    exact fin (hdr_set h (bs := v.octets) (by simp [Ipv4Addr.octets]) (fun c hc => copyRange_ok rfl hc))
      (by omega) (by simp [Ipv4Addr.octets]; omega)
  | destination v =>
    exact fin (hdr_set h (bs := v.octets) (by simp [Ipv4Addr.octets]) (fun c hc => copyRange_ok rfl hc))
      (by omega) (by simp [Ipv4Addr.octets]; omega)
  | protocol v => exact fin (hdr_set h (by simp) (fun c hc => setIdx_ok hc)) (by omega) (by simp; omega)

/-- A run of guarded calls none of which panics in a state satisfying an invariant. -/
theorem runIgnoringErrors_inv {σ : Type} {P : σ → Prop} (fs : List (Mut σ Unit))
    (hf : ∀ f ∈ fs, ∀ s, P s → (f s).1 ≠ .panic ∧ P (f s).2) (s : σ) (hs : P s) :
    ∃ s', runIgnoringErrors fs s = (.ok (), s') ∧ P s' := by
  induction fs generalizing s with
  | nil => exact ⟨s, rfl, hs⟩
  | cons f fs ih =>
    have h1 := hf f (by simp) s hs
    rw [runIgnoringErrors]
    cases hfs : f s with
    | mk o s' =>
      rw [hfs] at h1
      obtain ⟨s'', h2, h3⟩ := ih (fun g hg => hf g (by simp [hg])) s' h1.2
      cases o with
      | ok a => exact ⟨s'', by simp only [hfs]; exact h2, h3⟩
      | err e => exact ⟨s'', by simp only [hfs]; exact h2, h3⟩
      | panic => exact absurd rfl h1.1

/-- C19: after any history of setter calls through `checked()` with any arguments (errors included), the
drop of the guard does not panic and `is_valid()` is true; the packet is still accepted, and the header
verifies as RFC 1071 prescribes. -/
theorem C19_v4_checked (cfg : Cfg) (b : Bytes) (h : Legal b) (ops : List V4.Set) :
    ∃ b', V4.checkedRun cfg ops b = (.ok (), b') ∧ V4.isValid cfg b' = .ok true ∧ Legal b' ∧
      verifies (b'.take (4 * field b' 4 4)) := by
  obtain ⟨b₁, h1, h2⟩ := runIgnoringErrors_inv (P := Legal) (ops.map V4.Set.run) (by
    intro f hf s hs
    obtain ⟨op, -, rfl⟩ := List.mem_map.1 hf
    exact v4_set_legal op s hs) b h
  obtain ⟨b₂, h3, h4, h5, h6, h7⟩ := C08_v4_update_checksum cfg b₁ h2.1 h2.2
  have hcr : V4.checkedRun cfg ops b = (.ok (), b₂) := by
    unfold V4.checkedRun
    refine (Mut.bind_ok h1).trans ?_
    simp [Mut.unwrap, h3]
  have hleg : Legal b₂ := by
    obtain ⟨k1, k2, k3⟩ := h2.ok
    have hb : ∀ s w, s + w ≤ 80 → field b₂ s w = field b₁ s w := by
      intro s w hsw
      exact field_congr fun i hi1 hi2 => bitAt_congr (h7.frame _ (by omega))
    have hok := (V4.noPayload_ok_iff.1 h2.1).2
    exact ⟨V4.noPayload_ok_iff.2 ⟨rfl, by rw [h7.length]; exact hok.long, by rw [hb 0 4 (by omega)]; exact hok.version,
      by rw [hb 4 4 (by omega), h7.length]; exact hok.header⟩, by rw [hb 4 4 (by omega)]; exact h2.2⟩
  refine ⟨b₂, hcr, h4, hleg, ?_⟩
  have : field b₂ 4 4 = field b₁ 4 4 :=
    field_congr fun i hi1 hi2 => bitAt_congr (h7.frame _ (by omega))
  rw [this]; exact h5

/-- A concrete case that meets the hypotheses. -/
example (cfg : Cfg) := C19_v4_checked cfg Sample.udpPacket ⟨by decide, by decide⟩

/-! ### The fields after `checked()` -/

/-- The bit field `(start, width)` that a setter of `Checked` writes as a whole, and the number written;
`set_flags` and `set_offset` write the 16 bits of flags and fragment offset together (C77). -/
def v4Written : V4.Set → Option (Nat × Nat × Nat)
  | .id v => some (32, 16, v.toNat)
  | .flags v => some (48, 16, v.bits.toNat)
  | .offset v => some (48, 16, v.toNat)
  | .ttl v => some (64, 8, v.toNat)
  | .protocol v => some (72, 8, v.toWire.toNat)
  | .source v => some (96, 32, beNat v.octets)
  | .destination v => some (128, 32, beNat v.octets)
  | .dscp _ => none
  | .ecn _ => none

/-- The last number a history writes to the field starting at bit `s`. -/
def v4Last (s d : Nat) (ops : List V4.Set) : Nat :=
  last (fun op => (v4Written op).bind fun x => if x.1 = s then some x.2.2 else none) d ops

/-- What a call does to `(dscp, ecn)`: values out of range are refused; `set_ecn` as in C77. -/
def tosStep (t : Nat × Nat) : V4.Set → Nat × Nat
  | .dscp v => if v.toNat ≤ 63 then (v.toNat, t.2) else t
  | .ecn v => if v.toNat ≤ 3 then (t.1 % 16, t.2 ||| v.toNat) else t
  | _ => t

/-- The last DSCP in range. -/
def dscpLast (d : Nat) (ops : List V4.Set) : Nat :=
  last (fun op => match op with
    | .dscp v => if v.toNat ≤ 63 then some v.toNat else none
    | _ => none) d ops

theorem v4_set_step (op : V4.Set) (b : Bytes) (h : Legal b) :
    ∃ o, op.run b = (o, (op.run b).2) ∧ o ≠ .panic ∧
      (match v4Written op with
        | some (s, w, v) => SetsField b (op.run b).2 s w v
        | none => (∃ x, SetsField b (op.run b).2 8 8 x)) ∧
      (field (op.run b).2 8 6, field (op.run b).2 14 2) = tosStep (field b 8 6, field b 14 2) op := by
  obtain ⟨h1, h2, h3⟩ := h.ok
  have fin : ∀ {b'' : Bytes} {s w v : Nat}, op.run b = (.ok (), b'') → SetsField b b'' s w v →
      v4Written op = some (s, w, v) → 32 ≤ s →
      tosStep (field b 8 6, field b 14 2) op = (field b 8 6, field b 14 2) →
      ∃ o, op.run b = (o, (op.run b).2) ∧ o ≠ .panic ∧
      (match v4Written op with
        | some (s, w, v) => SetsField b (op.run b).2 s w v
        | none => (∃ x, SetsField b (op.run b).2 8 8 x)) ∧
      (field (op.run b).2 8 6, field (op.run b).2 14 2) = tosStep (field b 8 6, field b 14 2) op := by
    intro b'' s w v he hs hw h32 ht
    refine ⟨.ok (), by rw [he], (fun hp => by cases hp), ?_, ?_⟩
    · rw [he, hw]; exact hs
    · rw [he, ht]
      exact Prod.ext (hs.other (by omega)) (hs.other (by omega))
  have hself : ∀ x : U8, SetsField b (put b 1 [x]) 8 8 x.toNat := fun x => setsField_put8 (off := 1) (by omega)
  have hrefl : SetsField b b 8 8 (field b 8 8) := ⟨rfl, rfl, fun _ _ => rfl⟩
  have hset := C16_v4_setters b h
  cases op with
  | dscp v =>
    by_cases hv : v.toNat ≤ 63
    · have he : (V4.Set.dscp v).run b = _ := v4_setDscp_eq h1 hv
      refine ⟨.ok (), by rw [he], (fun hp => by cases hp), ?_, ?_⟩
      · rw [he]; exact ⟨_, hself _⟩
      · rw [he]
        have hs := v4_setDscp_sets h1 hv
        simp only [tosStep, if_pos hv]
        exact Prod.ext hs.value (hs.other (by omega))
    · have he : (V4.Set.dscp v).run b = _ := (C18_v4_range_checks b v).1 (by omega)
      refine ⟨.err .invalidValue, by rw [he], (fun hp => by cases hp), ?_, ?_⟩
      · rw [he]; exact ⟨_, hrefl⟩
      · rw [he]; simp only [tosStep, if_neg hv]
  | ecn v =>
    by_cases hv : v.toNat ≤ 3
    · have he : (V4.Set.ecn v).run b = _ := v4_setEcn_eq h1 hv
      refine ⟨.ok (), by rw [he], (fun hp => by cases hp), ?_, ?_⟩
      · rw [he]; exact ⟨_, hself _⟩
      · obtain ⟨b'', e1, e2, e3, -⟩ := C77_v4_set_ecn_exact b h1 v hv
        have he' : (V4.Set.ecn v).run b = (.ok (), b'') := e1
        rw [he']; simp only [tosStep, if_pos hv, e2, e3]
    · have he : (V4.Set.ecn v).run b = _ := (C18_v4_range_checks b v).2 (by omega)
      refine ⟨.err .invalidValue, by rw [he], (fun hp => by cases hp), ?_, ?_⟩
      · rw [he]; exact ⟨_, hrefl⟩
      · rw [he]; simp only [tosStep, if_neg hv]
  | id v => obtain ⟨b'', e1, e2, -⟩ := hset.2.1 v; exact fin e1 e2 rfl (by omega) rfl
  | flags v =>
    obtain ⟨b'', e1, e2⟩ := (C77_v4_set_flags_offset_exact b h).1 v; exact fin e1 e2 rfl (by omega) rfl
  | offset v =>
    obtain ⟨b'', e1, e2⟩ := (C77_v4_set_flags_offset_exact b h).2 v; exact fin e1 e2 rfl (by omega) rfl
  | ttl v => obtain ⟨b'', e1, e2, -⟩ := hset.2.2.1 v; exact fin e1 e2 rfl (by omega) rfl
  | source v => obtain ⟨b'', e1, e2, -⟩ := hset.2.2.2.1 v; exact fin e1 e2 rfl (by omega) rfl
  | destination v => obtain ⟨b'', e1, e2, -⟩ := hset.2.2.2.2.1 v; exact fin e1 e2 rfl (by omega) rfl
  | protocol v => obtain ⟨b'', e1, e2, -⟩ := hset.2.2.2.2.2.1 v; exact fin e1 e2 rfl (by omega) rfl

/-- The fields every setter writes as a whole. -/
def v4Fields : List (Nat × Nat) := [(32, 16), (48, 16), (64, 8), (72, 8), (96, 32), (128, 32)]

theorem v4_set_last (op : V4.Set) (b : Bytes) (h : Legal b) :
    (op.run b).2.length = b.length ∧ (∀ i, 160 ≤ i → bitAt (op.run b).2 i = bitAt b i) ∧
      field (op.run b).2 0 8 = field b 0 8 ∧ field (op.run b).2 16 16 = field b 16 16 ∧
      (∀ s w, (s, w) ∈ v4Fields → field (op.run b).2 s w =
        ((v4Written op).bind fun x => if x.1 = s then some x.2.2 else none).getD (field b s w)) := by
  obtain ⟨o, -, -, h1, -⟩ := v4_set_step op b h
  cases hw : v4Written op with
  | none =>
    simp only [hw] at h1
    obtain ⟨x, hx⟩ := h1
    refine ⟨hx.length, fun i hi => hx.frame i (by omega), hx.other (by omega), hx.other (by omega), ?_⟩
    intro s w hsw
    simp only [Option.bind_none, Option.getD_none]
    apply hx.other
    simp only [v4Fields, List.mem_cons, Prod.mk.injEq, List.not_mem_nil, or_false] at hsw
    omega
  | some x =>
    obtain ⟨s0, w0, v0⟩ := x
    simp only [hw] at h1
    have hmem : (s0, w0) ∈ v4Fields := by
      cases op <;> simp only [v4Written, Option.some.injEq, Prod.mk.injEq, reduceCtorEq] at hw <;>
        (obtain ⟨rfl, rfl, -⟩ := hw; simp [v4Fields])
    simp only [v4Fields, List.mem_cons, Prod.mk.injEq, List.not_mem_nil, or_false] at hmem
    refine ⟨h1.length, fun i hi => h1.frame i (by omega), h1.other (by omega), h1.other (by omega), ?_⟩
    intro s w hsw
    simp only [v4Fields, List.mem_cons, Prod.mk.injEq, List.not_mem_nil, or_false] at hsw
    simp only [Option.bind_some]
    by_cases hs : s0 = s
    · rw [if_pos hs, Option.getD_some, ← h1.value, ← hs]
      congr 1; omega
    · rw [if_neg hs, Option.getD_none]
      exact h1.other (by omega)

/-- C19, the values: after any history of setter calls through `checked()`, besides the checksum exactly the
fields that were set have changed, to the last value given; version, header length, total length and every
byte behind the fixed header are as before.  DSCP and ECN go through the range checks and the behaviour of
`set_ecn` (C77); without `set_ecn` the DSCP is the last one in range and the ECN unchanged. -/
theorem C19_v4_checked_fields (cfg : Cfg) (b : Bytes) (h : Legal b) (ops : List V4.Set) :
    ∃ b', V4.checkedRun cfg ops b = (.ok (), b') ∧ b'.length = b.length ∧ b'.drop 20 = b.drop 20 ∧
      field b' 0 8 = field b 0 8 ∧ field b' 16 16 = field b 16 16 ∧
      (∀ s w, (s, w) ∈ v4Fields → field b' s w = v4Last s (field b s w) ops) ∧
      (field b' 8 6, field b' 14 2) = ops.foldl tosStep (field b 8 6, field b 14 2) ∧
      ((∀ op ∈ ops, ∀ v, op ≠ .ecn v) →
        field b' 8 6 = dscpLast (field b 8 6) ops ∧ field b' 14 2 = field b 14 2) := by
  have key : ∀ (ops : List V4.Set) (b : Bytes), Legal b →
      ∃ b', runIgnoringErrors (ops.map V4.Set.run) b = (.ok (), b') ∧ Legal b' ∧ b'.length = b.length ∧
        (∀ i, 160 ≤ i → bitAt b' i = bitAt b i) ∧ field b' 0 8 = field b 0 8 ∧
        field b' 16 16 = field b 16 16 ∧
        (∀ s w, (s, w) ∈ v4Fields → field b' s w = v4Last s (field b s w) ops) ∧
        (field b' 8 6, field b' 14 2) = ops.foldl tosStep (field b 8 6, field b 14 2) := by
    intro ops
    induction ops with
    | nil => intro b hb; exact ⟨b, rfl, hb, rfl, fun _ _ => rfl, rfl, rfl, fun _ _ _ => rfl, rfl⟩
    | cons op ops ih =>
      intro b hb
      obtain ⟨l1, l2, l3, l4, l5⟩ := v4_set_last op b hb
      obtain ⟨o, s1, s2, -, s4⟩ := v4_set_step op b hb
      obtain ⟨b₂, k1, k2, k3, k4, k5, k6, k7, k8⟩ := ih _ (v4_set_legal op b hb).2
      refine ⟨b₂, ?_, k2, k3.trans l1, fun i hi => (k4 i hi).trans (l2 i hi), k5.trans l3, k6.trans l4, ?_, ?_⟩
      · simp only [List.map_cons, runIgnoringErrors]
        rw [s1]
        cases o with
        | ok a => exact k1
        | err e => exact k1
        | panic => exact absurd rfl s2
      · intro s w hsw
        rw [k7 s w hsw, l5 s w hsw]
        unfold v4Last
        rw [last_cons]
      · rw [k8, s4, List.foldl_cons]
  obtain ⟨b₁, h1, h2, h3, h4, h5, h6, h7, h8⟩ := key ops b h
  obtain ⟨b₂, g3, g4, g5, g6, g7⟩ := C08_v4_update_checksum cfg b₁ h2.1 h2.2
  have hcr : V4.checkedRun cfg ops b = (.ok (), b₂) := by
    unfold V4.checkedRun
    refine (Mut.bind_ok h1).trans ?_
    simp [Mut.unwrap, g3]
  have hf : ∀ s w, s + w ≤ 80 ∨ 96 ≤ s → field b₂ s w = field b₁ s w := by
    intro s w hsw
    exact field_congr fun i hi1 hi2 => bitAt_congr (g7.frame _ (by omega))
  have htos : (field b₂ 8 6, field b₂ 14 2) = ops.foldl tosStep (field b 8 6, field b 14 2) := by
    rw [hf 8 6 (by omega), hf 14 2 (by omega)]; exact h8
  refine ⟨b₂, hcr, g7.length.trans h3, ?_, (hf _ _ (by omega)).trans h5, (hf _ _ (by omega)).trans h6, ?_, htos, ?_⟩
  · have hl2 := g7.length
    apply List.ext_getElem?
    intro i
    rw [List.getElem?_drop, List.getElem?_drop, g7.frame _ (by omega)]
    by_cases hi : 20 + i < b.length
    · rw [getD_of_lt (by omega), getD_of_lt hi]
      congr 1
      have : ∀ j, j < 8 → (b₁.getD (20 + i) 0#8).getMsbD j = (b.getD (20 + i) 0#8).getMsbD j := by
        intro j hj
        rw [← bitAt_eq _ _ _ hj, ← bitAt_eq _ _ _ hj]
        exact h4 _ (by omega)
      exact BitVec.eq_of_getMsbD_eq (fun j hj => this j hj)
    · rw [List.getElem?_eq_none (by omega), List.getElem?_eq_none (by omega)]
  · intro s w hsw
    rw [hf s w (by
      simp only [v4Fields, List.mem_cons, Prod.mk.injEq, List.not_mem_nil, or_false] at hsw; omega)]
    exact h7 s w hsw
  · intro hne
    have fold : ∀ (ops : List V4.Set) (t : Nat × Nat), (∀ op ∈ ops, ∀ v, op ≠ .ecn v) →
        ops.foldl tosStep t = (dscpLast t.1 ops, t.2) := by
      intro ops
      induction ops with
      | nil => intro t _; rfl
      | cons op ops ih =>
        intro t hne
        rw [List.foldl_cons, ih _ (fun o ho => hne o (by simp [ho]))]
        unfold dscpLast
        rw [last_cons]
        cases op with
        | dscp v => by_cases hv : v.toNat ≤ 63 <;> simp [tosStep, hv]
        | ecn v => exact absurd rfl (hne (.ecn v) (by simp) v)
        | _ => rfl
    rw [fold ops _ hne] at htos
    exact ⟨congrArg Prod.fst htos, congrArg Prod.snd htos⟩

/-- A history with a refused value: ttl and destination change, the DSCP does not, the checksum is right. -/
example : ∃ b', V4.checkedRun ⟨true, true, false⟩ [.ttl 9, .dscp 64, .destination ⟨1, 2, 3, 4⟩]
    [0x45, 0xb8, 0, 20, 0, 0, 0, 0, 64, 17, 0, 0, 10, 0, 0, 1, 10, 0, 0, 2] = (.ok (), b') ∧
    field b' 64 8 = 9 ∧ field b' 128 32 = 0x01020304 ∧ field b' 8 6 = 46 := by
  refine ⟨(V4.checkedRun ⟨true, true, false⟩ [.ttl 9, .dscp 64, .destination ⟨1, 2, 3, 4⟩]
    [0x45, 0xb8, 0, 20, 0, 0, 0, 0, 64, 17, 0, 0, 10, 0, 0, 1, 10, 0, 0, 2]).2, ?_, ?_, ?_, ?_⟩ <;> decide +kernel

end Verif.Props

import Verif.Lemmas.Transport
import Verif.Props.Checksum
import Verif.Props.V4
import Verif.Samples

/-! # C20 - C28: `ip::Packet`, `udp::Packet`, `tcp::Packet` -/

namespace Verif.Props
open Verif Spec

/-! ## C20: `ip::Packet` -/

theorem nibble_iff {b : Bytes} {n : Nat} (hn : n < 16) :
    (b.getD 0 0#8) >>> 4 = BitVec.ofNat 8 n ↔ field b 0 4 = n := by
  have hv := field_hi4 b 0
  simp only [Nat.mul_zero] at hv
  rw [hv, ← shr4_toNat]
  constructor
  · intro h; rw [h]; simp; omega
  · intro h; exact BitVec.eq_of_toNat_eq (by rw [h]; simp; omega)

/-- C20: on every non-empty buffer `new` and `no_payload` return, and they return
what the version nibble says. A version-6 buffer is accepted whatever its length. Not part of this claim: the empty
buffer. -/
theorem C20_ip_dispatch (b : Bytes) (h : b ≠ []) :
    (IpPacket.new b).returns ∧ (IpPacket.noPayload b).returns ∧
    IpPacket.new b = (if field b 0 4 = 4 then IpPacket.v4 <$> V4.new b
      else if field b 0 4 = 6 then .ok (.v6 b) else .err .invalidPacket) ∧
    IpPacket.noPayload b = (if field b 0 4 = 4 then IpPacket.v4 <$> V4.noPayload b
      else if field b 0 4 = 6 then .ok (.v6 b) else .err .invalidPacket) := by
  have hl : 0 < b.length := List.length_pos_iff.2 h
  have h4 := nibble_iff (b := b) (n := 4) (by omega)
  have h6 := nibble_iff (b := b) (n := 6) (by omega)
  have v6 : field b 0 4 = 6 → V6.noPayload b = .ok b := by
    intro h6'
    unfold V6.noPayload V6.headerMin
    rw [if_neg (by omega), idx_ok hl]
    simp only [Outcome.ok_bind]
    rw [if_neg (fun x => x (h6.2 h6'))]
  have e1 : IpPacket.new b = (if field b 0 4 = 4 then IpPacket.v4 <$> V4.new b
      else if field b 0 4 = 6 then .ok (.v6 b) else .err .invalidPacket) := by
    unfold IpPacket.new
    rw [idx_ok hl]
    simp only [Outcome.ok_bind]
    by_cases c4 : field b 0 4 = 4
    · rw [if_pos (h4.2 c4), if_pos c4]
      cases V4.new b <;> rfl
    · rw [if_neg (fun x => c4 (h4.1 x)), if_neg c4]
      by_cases c6 : field b 0 4 = 6
      · rw [if_pos (h6.2 c6), if_pos c6, V6.new, v6 c6]; rfl
      · rw [if_neg (fun x => c6 (h6.1 x)), if_neg c6]
  have e2 : IpPacket.noPayload b = (if field b 0 4 = 4 then IpPacket.v4 <$> V4.noPayload b
      else if field b 0 4 = 6 then .ok (.v6 b) else .err .invalidPacket) := by
    unfold IpPacket.noPayload
    rw [idx_ok hl]
    simp only [Outcome.ok_bind]
    by_cases c4 : field b 0 4 = 4
    · rw [if_pos (h4.2 c4), if_pos c4]
      cases V4.noPayload b <;> rfl
    · rw [if_neg (fun x => c4 (h4.1 x)), if_neg c4]
      by_cases c6 : field b 0 4 = 6
      · rw [if_pos (h6.2 c6), if_pos c6, v6 c6]; rfl
      · rw [if_neg (fun x => c6 (h6.1 x)), if_neg c6]
  have np : V4.noPayload b ≠ .panic := by
    rw [V4.noPayload_eq]; split
    · exact fun h => by cases h
    · split
      · exact fun h => by cases h
      · split <;> exact fun h => by cases h
  have nn : V4.new b ≠ .panic := by
    rw [V4.new_eq]; repeat' split
    all_goals exact fun h => by cases h
  refine ⟨?_, ?_, e1, e2⟩
  · unfold Outcome.returns; rw [e1]
    split
    · cases h : V4.new b with
      | panic => exact absurd h nn
      | ok a => exact fun h => by cases h
      | err e => exact fun h => by cases h
    · split <;> exact fun h => by cases h
  · unfold Outcome.returns; rw [e2]
    split
    · cases h : V4.noPayload b with
      | panic => exact absurd h np
      | ok a => exact fun h => by cases h
      | err e => exact fun h => by cases h
    · split <;> exact fun h => by cases h

/-- A concrete case that meets the hypotheses. -/
example := C20_ip_dispatch Sample.udpPacket (by decide)

/-- C20, views: a v4 value answers as the v4 packet does; a v6 value is empty (the crate does not
implement IPv6). -/
theorem C20_ip_views (b : Bytes) :
    (IpPacket.v4 b).header = V4.header b ∧ (IpPacket.v4 b).payload = V4.payload b ∧
    (IpPacket.v4 b).asRef = V4.asRef b ∧ (IpPacket.v4 b).headerSize = V4.headerSize b ∧
    (IpPacket.v4 b).payloadSize = V4.payloadSize b ∧
    (IpPacket.v6 b).header = .ok [] ∧ (IpPacket.v6 b).payload = .ok [] ∧ (IpPacket.v6 b).asRef = .ok [] ∧
    (IpPacket.v6 b).headerSize = .ok 0 ∧ (IpPacket.v6 b).payloadSize = .ok 0 :=
  ⟨rfl, rfl, rfl, rfl, rfl, rfl, rfl, rfl, rfl, rfl⟩

/-- C20, `ip::v6::Packet`: on every non-empty buffer `new` and `no_payload` accept exactly version 6, and the traits
give an empty packet. -/
theorem C20_v6_accept (b : Bytes) (h : b ≠ []) :
    V6.new b = (if field b 0 4 = 6 then .ok b else .err .invalidPacket) ∧
    V6.noPayload b = (if field b 0 4 = 6 then .ok b else .err .invalidPacket) ∧
    V6.split b = .ok ([], []) ∧ V6.asRef b = .ok [] ∧ V6.headerSize b = .ok 0 ∧ V6.payloadSize b = .ok 0 := by
  have hl : 0 < b.length := List.length_pos_iff.2 h
  have h6 := nibble_iff (b := b) (n := 6) (by omega)
  have e : V6.noPayload b = (if field b 0 4 = 6 then .ok b else .err .invalidPacket) := by
    unfold V6.noPayload V6.headerMin
    rw [if_neg (by omega), idx_ok hl]
    simp only [Outcome.ok_bind]
    by_cases c : field b 0 4 = 6
    · rw [if_pos c, if_neg (fun x => x (h6.2 c))]
    · rw [if_neg c, if_pos (fun x => c (h6.1 x))]
  exact ⟨e, e, rfl, rfl, rfl, rfl⟩

/-- A concrete case that meets the hypotheses. -/
example := C20_v6_accept Sample.udpPacket (by decide)

/-- C69 is false of the code: the empty buffer panics instead of giving an error. -/
theorem C69_ip_empty_refuted : IpPacket.new [] = .panic ∧ IpPacket.noPayload [] = .panic ∧
    V6.new [] = .panic := ⟨rfl, rfl, rfl⟩

example : IpPacket.new [0x45, 0, 0, 20, 0, 0, 0, 0, 64, 17, 0, 0, 10, 0, 0, 1, 10, 0, 0, 2]
    = .ok (.v4 [0x45, 0, 0, 20, 0, 0, 0, 0, 64, 17, 0, 0, 10, 0, 0, 1, 10, 0, 0, 2]) := by decide
example : IpPacket.new [0x60] = .ok (.v6 [0x60]) := by decide

/-! ## C21: `udp::Packet` parsing -/

/-- C21, acceptance. -/
theorem C21_udp_accept (b : Bytes) :
    Udp.noPayload b = (if 8 ≤ b.length then .ok b else .err .smallBuffer) ∧
    Udp.new b = (if 8 ≤ b.length ∧ field b 32 16 ≤ b.length then .ok b else .err .smallBuffer) := by
  rw [Udp.noPayload_eq, Udp.new_eq]
  constructor
  · split <;> split <;> first | rfl | omega
  · split <;> split <;> first | rfl | omega

/-- C21, fields: on every buffer of at least 8 bytes (hence on everything `new` or `no_payload` accepts). -/
theorem C21_udp_fields (b : Bytes) (h : 8 ≤ b.length) :
    Udp.source b = .ok (BitVec.ofNat 16 (field b 0 16)) ∧
    Udp.destination b = .ok (BitVec.ofNat 16 (field b 16 16)) ∧
    Udp.length b = .ok (BitVec.ofNat 16 (field b 32 16)) ∧
    Udp.checksum b = .ok (BitVec.ofNat 16 (field b 48 16)) :=
  ⟨readU16At_field (k := 0) (by omega), readU16At_field (k := 2) (by omega),
    readU16At_field (k := 4) (by omega), readU16At_field (k := 6) (by omega)⟩

/-- A concrete case that meets the hypotheses. -/
example := C21_udp_fields Sample.udp (by decide)

/-- C21, views of a datagram accepted by `new`. -/
theorem C21_udp_views (b : Bytes) (h : Udp.new b = .ok b) :
    Udp.header b = .ok (b.take 8) ∧
    Udp.payload b = .ok ((b.drop 8).take (field b 32 16 - 8)) ∧
    Udp.headerSize b = .ok 8 ∧ Udp.payloadSize b = .ok (field b 32 16 - 8) ∧
    ((b.drop 8).take (field b 32 16 - 8)).length = field b 32 16 - 8 ∧
    Udp.asRef b = .ok (b.take 8 ++ (b.drop 8).take (field b 32 16 - 8)) := by
  obtain ⟨-, h1, h2⟩ := Udp.new_ok_iff.1 h
  refine ⟨?_, ?_, rfl, Udp.payloadSize_eq h1, ?_, ?_⟩
  · unfold Udp.header; rw [Udp.split_eq h1]; rfl
  · unfold Udp.payload; rw [Udp.split_eq h1]; rfl
  · rw [List.length_take, List.length_drop]; omega
  · unfold Udp.asRef Udp.size
    rw [Udp.payloadSize_eq h1]
    simp only [Udp.headerSize, Outcome.ok_bind]
    rw [sliceTo_ok (by omega), List.take_add]

/-- A concrete case that meets the hypotheses. -/
example := C21_udp_views Sample.udp (by decide)

/-- C21, views through `no_payload`: the payload is what is there, up to the length field. -/
theorem C21_udp_views_no_payload (b : Bytes) (h : Udp.noPayload b = .ok b) :
    Udp.header b = .ok (b.take 8) ∧ Udp.payload b = .ok ((b.drop 8).take (field b 32 16 - 8)) := by
  have h1 : 8 ≤ b.length := by
    rw [Udp.noPayload_eq] at h; split at h
    · cases h
    · omega
  constructor
  · unfold Udp.header; rw [Udp.split_eq h1]; rfl
  · unfold Udp.payload; rw [Udp.split_eq h1]; rfl

example : Udp.new [0, 53, 4, 0, 0, 10, 0, 0, 1, 2, 0, 0] = .ok [0, 53, 4, 0, 0, 10, 0, 0, 1, 2, 0, 0] ∧
    Udp.payload [0, 53, 4, 0, 0, 10, 0, 0, 1, 2, 0, 0] = .ok [1, 2] := by decide

/-! ## C22, C23 -/

/-- C22: the UDP setters. -/
theorem C22_udp_setters (b : Bytes) (h : Udp.noPayload b = .ok b) (v : U16) :
    (∃ b', Udp.setSource v b = (.ok (), b') ∧ SetsField b b' 0 16 v.toNat ∧ Udp.source b' = .ok v) ∧
    (∃ b', Udp.setDestination v b = (.ok (), b') ∧ SetsField b b' 16 16 v.toNat ∧
      Udp.destination b' = .ok v) ∧
    (∃ b', Udp.setChecksum v b = (.ok (), b') ∧ SetsField b b' 48 16 v.toNat ∧ Udp.checksum b' = .ok v) := by
  have h1 : 8 ≤ b.length := by
    rw [Udp.noPayload_eq] at h; split at h
    · cases h
    · omega
  exact ⟨⟨_, Udp.setSource_eq h1, setsField_put16 (off := 0) (by omega), readU16At_put (by omega)⟩,
    ⟨_, Udp.setDestination_eq h1, setsField_put16 (off := 2) (by omega), readU16At_put (by omega)⟩,
    ⟨_, Udp.setChecksum_eq h1, setsField_put16 (off := 6) (by omega), readU16At_put (by omega)⟩⟩

example : Udp.setSource 0x1234 [0, 53, 4, 0, 0, 10, 0, 0] = (.ok (), [0x12, 0x34, 4, 0, 0, 10, 0, 0]) := by
  rw [Udp.setSource_eq (by decide)]; decide

/-- C23: after any history of setter calls through `checked(ip)`, the guard's drop does not panic and the
datagram verifies; bytes behind the header and the length field are untouched; source and destination
are the last values given. -/
theorem C23_udp_checked (cfg : Cfg) (ip b : Bytes) (hip : 20 ≤ ip.length) (h : Udp.noPayload b = .ok b)
    (ops : List Udp.Set) :
    ∃ b', Udp.checkedRun cfg (.v4 ip) ops b = (.ok (), b') ∧ Udp.isValid cfg (.v4 ip) b' = .ok true ∧
      Udp.noPayload b' = .ok b' ∧ b'.length = b.length ∧ b'.drop 8 = b.drop 8 ∧
      field b' 32 16 = field b 32 16 ∧
      field b' 0 16 = last (fun | .source v => some v.toNat | _ => none) (field b 0 16) ops ∧
      field b' 16 16 = last (fun | .destination v => some v.toNat | _ => none) (field b 16 16) ops := by
  have h1 : 8 ≤ b.length := by
    rw [Udp.noPayload_eq] at h; split at h
    · cases h
    · omega
  -- the history of setters
  have key : ∀ (ops : List Udp.Set) (b : Bytes), 8 ≤ b.length →
      ∃ b', runIgnoringErrors (ops.map Udp.Set.run) b = (.ok (), b') ∧ b'.length = b.length ∧
        b'.drop 8 = b.drop 8 ∧ field b' 32 16 = field b 32 16 ∧
        field b' 0 16 = last (fun | .source v => some v.toNat | _ => none) (field b 0 16) ops ∧
        field b' 16 16 = last (fun | .destination v => some v.toNat | _ => none) (field b 16 16) ops := by
    intro ops
    induction ops with
    | nil => intro b hb; exact ⟨b, rfl, rfl, rfl, rfl, rfl, rfl⟩
    | cons op ops ih =>
      intro b hb
      have dropPut : ∀ {b : Bytes} {off : Nat} {bs : Bytes}, off + bs.length ≤ 8 → 8 ≤ b.length →
          (put b off bs).drop 8 = b.drop 8 := by
        intro b off bs ho hb
        apply List.ext_getElem?
        intro i
        rw [List.getElem?_drop, List.getElem?_drop, getElem?_put (by omega), if_neg (by omega),
          if_neg (by omega)]
      cases op with
      | source v =>
        have hs := setsField_put16 (b := b) (off := 0) (v := v) (by omega)
        obtain ⟨b', e1, e2, e3, e4, e5, e6⟩ := ih (put b 0 (be16 v)) (by rw [hs.length]; exact hb)
        refine ⟨b', ?_, e2.trans hs.length, ?_, ?_, ?_, ?_⟩
        · simp only [List.map_cons, runIgnoringErrors, Udp.Set.run, Udp.setSource_eq hb]; exact e1
        · rw [e3, dropPut (by simp [be16]) hb]
        · rw [e4, hs.other (by omega)]
        · rw [e5, last_cons, Option.getD_some, ← hs.value]
        · rw [e6, last_cons, Option.getD_none, hs.other (by omega)]
      | destination v =>
        have hs := setsField_put16 (b := b) (off := 2) (v := v) (by omega)
        obtain ⟨b', e1, e2, e3, e4, e5, e6⟩ := ih (put b 2 (be16 v)) (by rw [hs.length]; exact hb)
        refine ⟨b', ?_, e2.trans hs.length, ?_, ?_, ?_, ?_⟩
        · simp only [List.map_cons, runIgnoringErrors, Udp.Set.run, Udp.setDestination_eq hb]; exact e1
        · rw [e3, dropPut (by simp [be16]) hb]
        · rw [e4, hs.other (by omega)]
        · rw [e5, last_cons, Option.getD_none, hs.other (by omega)]
        · rw [e6, last_cons, Option.getD_some, ← hs.value]
  obtain ⟨b₁, e1, e2, e3, e4, e5, e6⟩ := key ops b h1
  have hn : Udp.noPayload b₁ = .ok b₁ := by rw [Udp.noPayload_eq, if_neg (by omega)]
  obtain ⟨b₂, k1, k2, k3, k4, k5⟩ := C08_udp_update_checksum cfg ip b₁ hip hn
  have hb : ∀ s w, s + w ≤ 48 → field b₂ s w = field b₁ s w := by
    intro s w hsw
    exact field_congr fun i hi1 hi2 => bitAt_congr (k4.frame _ (by omega))
  refine ⟨b₂, ?_, k2, ?_, k4.length.trans e2, ?_, ?_, ?_, ?_⟩
  · unfold Udp.checkedRun
    refine (Mut.bind_ok e1).trans ?_
    simp [Mut.unwrap, k1]
  · rw [Udp.noPayload_eq, if_neg (by have := k4.length; omega)]
  · rw [← e3]
    apply List.ext_getElem?
    intro i
    rw [List.getElem?_drop, List.getElem?_drop, k4.frame _ (by omega)]
  · rw [hb 32 16 (by omega), e4]
  · rw [hb 0 16 (by omega), e5]
  · rw [hb 16 16 (by omega), e6]

example : Udp.noPayload (zeros 12) = .ok (zeros 12) := by decide

/-! ## C24, C25: `tcp::Packet` parsing -/

/-- C24, acceptance. -/
theorem C24_tcp_accept (b : Bytes) :
    Tcp.new b = if 20 ≤ b.length ∧ field b 96 4 * 4 ≤ b.length then .ok b else .err .smallBuffer := by
  rw [Tcp.new_eq]; split <;> split <;> first | rfl | omega

theorem and511_toNat (v : U16) : (v &&& 0b1_1111_1111#16).toNat = v.toNat % 512 := by
  have : (v &&& 0b1_1111_1111#16).toNat = v.toNat &&& (2 ^ 9 - 1) := by simp [BitVec.toNat_and]
  rw [this, Nat.and_two_pow_sub_one_eq_mod]

theorem tcp_flags_eq {b : Bytes} (h : 14 ≤ b.length) :
    ∃ f, Tcp.flags b = .ok f ∧ f.bits = BitVec.ofNat 16 (field b 103 9) := by
  have h1 := field_add b 96 7 9
  have h2 := field_lt b 103 9
  have h3 := ofNat_field_toNat b 96 16
  simp only [Nat.reduceAdd] at h1
  have hv : BitVec.ofNat 16 (field b 96 16) &&& 0b1_1111_1111#16 = BitVec.ofNat 16 (field b 103 9) := by
    apply BitVec.eq_of_toNat_eq
    rw [and511_toNat, h3]
    simp; omega
  have hok : BitVec.ofNat 16 (field b 103 9) &&& ~~~0b1_1111_1111#16 = 0#16 := by
    rw [← hv, BitVec.and_assoc]
    rw [show (0b1_1111_1111#16 &&& ~~~0b1_1111_1111#16) = 0#16 from by decide, BitVec.and_zero]
  unfold Tcp.flags
  rw [readU16At_field (k := 12) (by omega)]
  simp only [Nat.reduceMul, Outcome.ok_bind, hv, TcpFlags.fromBits, dif_pos hok]
  exact ⟨_, rfl, rfl⟩

/-- C24, fields: on every buffer of at least 20 bytes; `flags()` in particular never panics. -/
theorem C24_tcp_fields (b : Bytes) (h : 20 ≤ b.length) :
    Tcp.source b = .ok (BitVec.ofNat 16 (field b 0 16)) ∧
    Tcp.destination b = .ok (BitVec.ofNat 16 (field b 16 16)) ∧
    Tcp.sequence b = .ok (BitVec.ofNat 32 (field b 32 32)) ∧
    Tcp.acknowledgment b = .ok (BitVec.ofNat 32 (field b 64 32)) ∧
    Tcp.offset b = .ok (BitVec.ofNat 8 (field b 96 4)) ∧
    (∃ f, Tcp.flags b = .ok f ∧ f.bits = BitVec.ofNat 16 (field b 103 9)) ∧
    Tcp.window b = .ok (BitVec.ofNat 16 (field b 112 16)) ∧
    Tcp.checksum b = .ok (BitVec.ofNat 16 (field b 128 16)) ∧
    Tcp.pointer b = .ok (BitVec.ofNat 16 (field b 144 16)) :=
  ⟨readU16At_field (k := 0) (by omega), readU16At_field (k := 2) (by omega),
    readU32At_field (k := 4) (by omega), readU32At_field (k := 8) (by omega),
    Tcp.offset_field (by omega), tcp_flags_eq (by omega), readU16At_field (k := 14) (by omega),
    readU16At_field (k := 16) (by omega), readU16At_field (k := 18) (by omega)⟩

/-- A concrete case that meets the hypotheses. -/
example := C24_tcp_fields Sample.tcp (by decide)

/-- C24, views. -/
theorem C24_tcp_views (cfg : Cfg) (b : Bytes) (hb : b.length < cfg.usizeMod) (h : Tcp.new b = .ok b) :
    Tcp.header b = .ok (b.take (field b 96 4 * 4)) ∧ Tcp.payload b = .ok (b.drop (field b 96 4 * 4)) ∧
    Tcp.headerSize b = .ok (field b 96 4 * 4) ∧
    Tcp.payloadSize cfg b = .ok (b.length - field b 96 4 * 4) ∧ Tcp.asRef cfg b = .ok b := by
  obtain ⟨-, h1, h2⟩ := Tcp.new_ok_iff.1 h
  have e1 : Tcp.headerSize b = .ok (field b 96 4 * 4) := by
    unfold Tcp.headerSize
    rw [Tcp.offset_field (by omega)]; simp only [Outcome.ok_bind, Tcp.offset_toNat]
  have e2 : Tcp.payloadSize cfg b = .ok (b.length - field b 96 4 * 4) := by
    unfold Tcp.payloadSize
    rw [Tcp.offset_field (by omega)]; simp only [Outcome.ok_bind, Tcp.offset_toNat]
    exact subUsize_ok h2
  refine ⟨?_, ?_, e1, e2, ?_⟩
  · unfold Tcp.header; rw [Tcp.split_eq h1 h2]; rfl
  · unfold Tcp.payload; rw [Tcp.split_eq h1 h2]; rfl
  · unfold Tcp.asRef Tcp.size
    rw [e1, e2]
    simp only [Outcome.ok_bind]
    rw [addUsize_ok (by omega)]
    simp only [Outcome.ok_bind]
    rw [sliceTo_ok (by omega), List.take_of_length_le (by omega)]

/-- A SYN with a 4-byte option area and a one-byte payload. -/
def synSegment : Bytes :=
  [0, 80, 4, 0, 0, 0, 0, 1, 0, 0, 0, 0, 0x60, 0x02, 0x10, 0, 0, 0, 0, 0, 2, 4, 5, 0xb4, 9]

example : Tcp.new synSegment = .ok synSegment ∧ Tcp.flags synSegment = .ok .syn ∧
    Tcp.payload synSegment = .ok [9] := by decide

/-- C25: `options()` covers bytes 20 .. offset*4 when the data offset is legal. -/
theorem C25_tcp_options (b : Bytes) (h : Tcp.new b = .ok b) (h5 : 5 ≤ field b 96 4) :
    Tcp.options b = .ok ((b.take (field b 96 4 * 4)).drop 20) := by
  obtain ⟨-, h1, h2⟩ := Tcp.new_ok_iff.1 h
  unfold Tcp.options
  rw [Tcp.offset_field (by omega)]; simp only [Outcome.ok_bind, Tcp.offset_toNat]
  exact slice_ok (by omega) h2

example : Tcp.options synSegment = .ok [2, 4, 5, 0xb4] := by decide

/-- C68: an accepted segment with a data offset below 5 makes `options()` panic, always. -/
theorem C68_tcp_options_panic (b : Bytes) (h : Tcp.new b = .ok b) (h5 : field b 96 4 < 5) :
    Tcp.options b = .panic := by
  obtain ⟨-, h1, h2⟩ := Tcp.new_ok_iff.1 h
  unfold Tcp.options
  rw [Tcp.offset_field (by omega)]; simp only [Outcome.ok_bind, Tcp.offset_toNat]
  unfold slice
  rw [if_neg (by omega)]

/-- A concrete case that meets the hypotheses. -/
example := C68_tcp_options_panic (put Sample.tcp 12 [64]) (by decide) (by decide)

/-- C68 is false of the code. -/
theorem C68_tcp_options_refuted : ∃ b, Tcp.new b = .ok b ∧ Tcp.options b = .panic :=
  ⟨zeros 20, by decide, by decide⟩

/-! ## C26, C27: TCP setters -/

theorem segOk {b : Bytes} (h : Tcp.new b = .ok b) (h5 : 5 ≤ field b 96 4) : Tcp.SegOk b := by
  obtain ⟨-, h1, h2⟩ := Tcp.new_ok_iff.1 h
  exact ⟨h1, h2, h5⟩

/-- C26. -/
theorem C26_tcp_setters (b : Bytes) (h : Tcp.new b = .ok b) (h5 : 5 ≤ field b 96 4) :
    (∀ v, ∃ b', Tcp.setSource v b = (.ok (), b') ∧ SetsField b b' 0 16 v.toNat ∧ Tcp.source b' = .ok v) ∧
    (∀ v, ∃ b', Tcp.setDestination v b = (.ok (), b') ∧ SetsField b b' 16 16 v.toNat ∧
      Tcp.destination b' = .ok v) ∧
    (∀ v, ∃ b', Tcp.setSequence v b = (.ok (), b') ∧ SetsField b b' 32 32 v.toNat ∧
      Tcp.sequence b' = .ok v) ∧
    (∀ v, ∃ b', Tcp.setAcknowledgment v b = (.ok (), b') ∧ SetsField b b' 64 32 v.toNat ∧
      Tcp.acknowledgment b' = .ok v) ∧
    (∀ v, ∃ b', Tcp.setWindow v b = (.ok (), b') ∧ SetsField b b' 112 16 v.toNat ∧ Tcp.window b' = .ok v) ∧
    (∀ v, ∃ b', Tcp.setPointer v b = (.ok (), b') ∧ SetsField b b' 144 16 v.toNat ∧
      Tcp.pointer b' = .ok v) ∧
    (∀ v, ∃ b', Tcp.setChecksum v b = (.ok (), b') ∧ SetsField b b' 128 16 v.toNat ∧
      Tcp.checksum b' = .ok v) := by
  have ok := segOk h h5
  have hl := ok.long
  exact ⟨fun v => ⟨_, Tcp.set16_eq ok (by omega), setsField_put16 (off := 0) (by omega), readU16At_put (by omega)⟩,
    fun v => ⟨_, Tcp.set16_eq ok (by omega), setsField_put16 (off := 2) (by omega), readU16At_put (by omega)⟩,
    fun v => ⟨_, Tcp.set32_eq ok (by omega), setsField_put32 (off := 4) (by omega), readU32At_put (by omega)⟩,
    fun v => ⟨_, Tcp.set32_eq ok (by omega), setsField_put32 (off := 8) (by omega), readU32At_put (by omega)⟩,
    fun v => ⟨_, Tcp.set16_eq ok (by omega), setsField_put16 (off := 14) (by omega), readU16At_put (by omega)⟩,
    fun v => ⟨_, Tcp.set16_eq ok (by omega), setsField_put16 (off := 18) (by omega), readU16At_put (by omega)⟩,
    fun v => ⟨_, Tcp.set16_eq ok (by omega), setsField_put16 (off := 16) (by omega), readU16At_put (by omega)⟩⟩

example : Tcp.new synSegment = .ok synSegment ∧ 5 ≤ field synSegment 96 4 := by decide

/-- What `set_flags` writes: the word at 12 becomes just the flag bits. -/
theorem tcp_setFlags_eq {b : Bytes} (ok : Tcp.SegOk b) (f : TcpFlags) :
    Tcp.setFlags f b = (.ok (), put b 12 (be16 f.bits)) := by
  have hl := ok.long
  have ho := ok.offset
  have hh : Tcp.header b = .ok (b.take (field b 96 4 * 4)) := by
    unfold Tcp.header; rw [Tcp.split_eq ok.long ok.header]; rfl
  unfold Tcp.setFlags
  refine (Mut.bind_ok (a := (b.take (field b 96 4 * 4)).getD 12 0#8) (s' := b) ?_).trans ?_
  · simp only [Mut.read, hh, Outcome.ok_bind]
    rw [idx_ok (by have := ok.header; rw [List.length_take]; omega)]
  · have hz : ∀ x : U8, ((x &&& 0b1111_0000#8).zeroExtend 16 <<< 12 : U16) = 0#16 := by
      intro x
      apply BitVec.eq_of_getLsbD_eq
      intro i hi
      simp only [BitVec.getLsbD_shiftLeft, BitVec.zeroExtend_eq_setWidth, BitVec.getLsbD_setWidth,
        BitVec.getLsbD_and, BitVec.getLsbD_zero]
      by_cases h12 : i < 12
      · simp [h12]
      · have : i - 12 = 0 ∨ i - 12 = 1 ∨ i - 12 = 2 ∨ i - 12 = 3 := by omega
        rcases this with h | h | h | h <;> rw [h] <;> simp
    simp only [hz, BitVec.zero_or]
    exact Tcp.set16_eq ok (by omega)

/-- C27, the part that holds: the nine flag bits are stored and read back, and bits other than the
first seven of that word (data offset and reserved bits) are unchanged. Missing: those seven bits, which
become zero. -/
theorem C27_tcp_set_flags_partial (b : Bytes) (h : Tcp.new b = .ok b) (h5 : 5 ≤ field b 96 4)
    (f : TcpFlags) :
    ∃ b', Tcp.setFlags f b = (.ok (), b') ∧ b'.length = b.length ∧ field b' 103 9 = f.bits.toNat ∧
      Tcp.flags b' = .ok f ∧ (∀ i, i < 96 ∨ 112 ≤ i → bitAt b' i = bitAt b i) ∧
      field b' 96 7 = 0 := by
  have ok := segOk h h5
  have hl := ok.long
  have hs := setsField_put16 (b := b) (off := 12) (v := f.bits) (by omega)
  have h1 := field_add (put b 12 (be16 f.bits)) 96 7 9
  have h2 := field_lt (put b 12 (be16 f.bits)) 103 9
  have hv := hs.value
  simp only [Nat.reduceAdd, Nat.reduceMul] at h1 hv
  have hf : f.bits.toNat < 512 := by
    have hval := f.valid
    have : f.bits &&& 0b1_1111_1111#16 = f.bits := by
      have e : f.bits = f.bits &&& (0b1_1111_1111#16 ||| ~~~0b1_1111_1111#16) := by
        rw [BitVec.or_not_self, BitVec.and_allOnes]
      rw [BitVec.and_or_distrib_left, hval, BitVec.or_zero] at e
      exact e.symm
    rw [← this, and511_toNat]; omega
  have h9 : field (put b 12 (be16 f.bits)) 103 9 = f.bits.toNat := by omega
  refine ⟨_, tcp_setFlags_eq ok f, hs.length, h9, ?_, fun i hi => hs.frame i (by omega), by omega⟩
  obtain ⟨g, g1, g2⟩ := tcp_flags_eq (b := put b 12 (be16 f.bits)) (by rw [hs.length]; omega)
  rw [g1, h9] at *
  congr 1
  cases f; cases g
  simp only [BitVec.ofNat_toNat, BitVec.setWidth_eq] at g2
  simp [g2]

/-- A concrete case that meets the hypotheses. -/
example := C27_tcp_set_flags_partial Sample.tcp (by decide) (by decide)

/-- C27 is false of the code: after `set_flags` on a plain segment the data offset is zero, the header
is empty, a further setter fails, and `options()` panics. -/
theorem C27_tcp_set_flags_refuted (b : Bytes) (h : Tcp.new b = .ok b) (h5 : 5 ≤ field b 96 4)
    (f : TcpFlags) :
    ∃ b', Tcp.setFlags f b = (.ok (), b') ∧ Tcp.offset b' = .ok 0 ∧ Tcp.header b' = .ok [] ∧
      Tcp.options b' = .panic ∧ (Tcp.setSource 1 b').1 = .err .io ∧ (Tcp.setWindow 1 b').1 = .panic ∧
      (Tcp.setFlags f b').1 = .panic := by
  obtain ⟨b', e1, e2, -, -, -, e6⟩ := C27_tcp_set_flags_partial b h h5 f
  have hl := (segOk h h5).long
  have h0 : field b' 96 4 = 0 := by
    have := field_add b' 96 4 3
    simp only [Nat.reduceAdd] at this
    omega
  have hb : 20 ≤ b'.length := by omega
  have hs : Tcp.split b' = .ok ([], b') := by
    rw [Tcp.split_eq hb (by omega), h0]; simp
  have hh : Tcp.header b' = .ok [] := by unfold Tcp.header; rw [hs]; rfl
  have hn : Tcp.new b' = .ok b' := Tcp.new_ok_iff.2 ⟨rfl, hb, by omega⟩
  refine ⟨b', e1, ?_, hh, C68_tcp_options_panic b' hn (by omega), ?_, ?_, ?_⟩
  · rw [Tcp.offset_field (by omega), h0]; rfl
  · unfold Tcp.setSource onHeader; rw [hs]; rfl
  · unfold Tcp.setWindow onHeader; rw [hs]; rfl
  · unfold Tcp.setFlags
    rw [Mut.bind_apply]
    simp only [Mut.read, hh, Outcome.ok_bind]
    rfl

/-- A concrete case that meets the hypotheses. -/
example := C27_tcp_set_flags_refuted Sample.tcp (by decide) (by decide)

/-! ## C28: TCP `checked()` -/

/-- `op` is not `set_flags`. -/
def notFlags : Tcp.Set → Prop
  | .flags _ => False
  | _ => True

/-- The bit field a TCP setter is for, and the value. -/
def tcpField : Tcp.Set → Nat × Nat × Nat
  | .source v => (0, 16, v.toNat)
  | .destination v => (16, 16, v.toNat)
  | .sequence v => (32, 32, v.toNat)
  | .acknowledgment v => (64, 32, v.toNat)
  | .flags v => (103, 9, v.bits.toNat)
  | .window v => (112, 16, v.toNat)
  | .pointer v => (144, 16, v.toNat)

/-- The last value that a history gives to the field starting at bit `s`. -/
def tcpLast (s d : Nat) (ops : List Tcp.Set) : Nat :=
  last (fun op => if (tcpField op).1 = s then some (tcpField op).2.2 else none) d ops

theorem tcp_set_ok {b : Bytes} (ok : Tcp.SegOk b) (op : Tcp.Set) (hop : notFlags op) :
    ∃ b', op.run b = (.ok (), b') ∧ Tcp.SegOk b' ∧
      SetsField b b' (tcpField op).1 (tcpField op).2.1 (tcpField op).2.2 := by
  have hl := ok.long
  cases op with
  | flags v => exact absurd hop id
  | source v => exact ⟨_, Tcp.set16_eq ok (by omega), ok.put (by simp [be16]; omega) (by simp [be16]),
      setsField_put16 (off := 0) (by omega)⟩
  | destination v => exact ⟨_, Tcp.set16_eq ok (by omega), ok.put (by simp [be16]; omega) (by simp [be16]),
      setsField_put16 (off := 2) (by omega)⟩
  | sequence v => exact ⟨_, Tcp.set32_eq ok (by omega), ok.put (by simp [be32]; omega) (by simp [be32]),
      setsField_put32 (off := 4) (by omega)⟩
  | acknowledgment v => exact ⟨_, Tcp.set32_eq ok (by omega), ok.put (by simp [be32]; omega) (by simp [be32]),
      setsField_put32 (off := 8) (by omega)⟩
  | window v => exact ⟨_, Tcp.set16_eq ok (by omega), ok.put (by simp [be16]; omega) (by simp [be16]),
      setsField_put16 (off := 14) (by omega)⟩
  | pointer v => exact ⟨_, Tcp.set16_eq ok (by omega), ok.put (by simp [be16]; omega) (by simp [be16]),
      setsField_put16 (off := 18) (by omega)⟩

/-- Any history of setters other than `set_flags`, before the guard is dropped. -/
theorem tcp_history : ∀ (ops : List Tcp.Set) (b : Bytes), Tcp.SegOk b → (∀ op ∈ ops, notFlags op) →
    ∃ b', runIgnoringErrors (ops.map Tcp.Set.run) b = (.ok (), b') ∧ Tcp.SegOk b' ∧
      b'.length = b.length ∧ (∀ i, 160 ≤ i ∨ (128 ≤ i ∧ i < 144) → bitAt b' i = bitAt b i) ∧
      (∀ s w, (s, w) ∈ [(0, 16), (16, 16), (32, 32), (64, 32), (112, 16), (144, 16)] →
        field b' s w = tcpLast s (field b s w) ops) ∧ field b' 96 16 = field b 96 16 := by
  intro ops
  induction ops with
  | nil => intro b hb _; exact ⟨b, rfl, hb, rfl, fun _ _ => rfl, fun _ _ _ => rfl, rfl⟩
  | cons op ops ih =>
    intro b ok hops
    have hop := hops op (by simp)
    obtain ⟨b₁, e1, e2, e3⟩ := tcp_set_ok ok op hop
    obtain ⟨b₂, k1, k2, k3, k4, k5, k6⟩ := ih b₁ e2 (fun o ho => hops o (by simp [ho]))
    refine ⟨b₂, ?_, k2, k3.trans e3.length, ?_, ?_, ?_⟩
    · simp only [List.map_cons, runIgnoringErrors, e1]; exact k1
    · intro i hi
      rw [k4 i hi]
      apply e3.frame
      cases op <;> simp only [tcpField] <;> first | omega | exact absurd hop id
    · intro s w hsw
      rw [k5 s w hsw]
      unfold tcpLast
      rw [last_cons]
      congr 1
      split
      · next heq =>
        have hv := e3.value
        rw [Option.getD_some, ← hv, ← heq]
        congr 1
        cases op <;> simp only [tcpField] at heq ⊢ <;> subst heq <;> first | exact absurd hop id | simpa using hsw
      · next hne =>
        rw [Option.getD_none]
        apply e3.other
        simp only [List.mem_cons, Prod.mk.injEq, List.not_mem_nil, or_false] at hsw
        cases op <;> simp only [tcpField] at hne ⊢ <;> first | exact absurd hop id | omega
    · rw [k6]
      apply e3.other
      cases op <;> simp only [tcpField] <;> first | omega | exact absurd hop id

/-- C28: histories without `set_flags`, even length or an older `std`. The guard's
drop does not panic, the segment verifies, is still accepted, and every field has the last value given. -/
theorem C28_tcp_checked (cfg : Cfg) (ip b : Bytes) (hip : 20 ≤ ip.length)
    (h : Tcp.new b = .ok b) (h5 : 5 ≤ field b 96 4) (hb' : b.length ≤ 65535)
    (hodd : b.length % 2 = 0 ∨ cfg.eofAdvances = false) (ops : List Tcp.Set)
    (hops : ∀ op ∈ ops, notFlags op) :
    ∃ b', Tcp.checkedRun cfg (.v4 ip) ops b = (.ok (), b') ∧ Tcp.isValid cfg (.v4 ip) b' = .ok true ∧
      Tcp.new b' = .ok b' ∧ b'.length = b.length ∧ b'.drop 20 = b.drop 20 ∧
      field b' 0 16 = tcpLast 0 (field b 0 16) ops ∧ field b' 16 16 = tcpLast 16 (field b 16 16) ops ∧
      field b' 32 32 = tcpLast 32 (field b 32 32) ops ∧ field b' 64 32 = tcpLast 64 (field b 64 32) ops ∧
      field b' 112 16 = tcpLast 112 (field b 112 16) ops ∧
      field b' 144 16 = tcpLast 144 (field b 144 16) ops ∧ field b' 96 16 = field b 96 16 := by
  obtain ⟨b₁, e1, e2, e3, e4, e5, e6⟩ := tcp_history ops b (segOk h h5) hops
  obtain ⟨b₂, k1, k2, k3, k4, k5⟩ := C08_tcp_update_checksum cfg ip b₁ hip
    (Tcp.new_ok_iff.2 ⟨rfl, e2.long, e2.header⟩) e2.offset (by omega) (by rw [e3]; exact hodd)
  have hf : ∀ s w, s + w ≤ 128 ∨ 144 ≤ s → field b₂ s w = field b₁ s w := by
    intro s w hsw
    exact field_congr fun i hi1 hi2 => bitAt_congr (k4.frame _ (by omega))
  refine ⟨b₂, ?_, k2, ?_, k4.length.trans e3, ?_, ?_, ?_, ?_, ?_, ?_, ?_, ?_⟩
  · unfold Tcp.checkedRun
    refine (Mut.bind_ok e1).trans ?_
    simp [Mut.unwrap, k1]
  · refine Tcp.new_ok_iff.2 ⟨rfl, by rw [k4.length]; exact e2.long, ?_⟩
    rw [hf 96 4 (by omega), k4.length]; exact e2.header
  · have hl2 := k4.length
    apply List.ext_getElem?
    intro i
    rw [List.getElem?_drop, List.getElem?_drop, k4.frame _ (by omega)]
    by_cases hi : 20 + i < b.length
    · rw [getD_of_lt (by omega), getD_of_lt hi]
      congr 1
      have : ∀ j, j < 8 → (b₁.getD (20 + i) 0#8).getMsbD j = (b.getD (20 + i) 0#8).getMsbD j := by
        intro j hj
        rw [← bitAt_eq _ _ _ hj, ← bitAt_eq _ _ _ hj]
        exact e4 _ (by omega)
      exact BitVec.eq_of_getMsbD_eq (fun j hj => this j hj)
    · rw [List.getElem?_eq_none (by omega), List.getElem?_eq_none (by omega)]
  all_goals first
    | rw [hf _ _ (by omega), e6]
    | rw [hf _ _ (by omega), e5 _ _ (by decide)]

/-- A concrete case that meets the hypotheses. -/
example (cfg : Cfg) := C28_tcp_checked cfg Sample.tcpPacket Sample.tcp (by decide) (by decide) (by decide) (by decide)
    (.inl (by decide)) [.window 7, .source 9] (by simp [notFlags])

/-- A segment whose data offset is zero: `set_source` fails, all other setters panic, and none of them changes
anything. -/
theorem tcp_no_header {b : Bytes} (hl : 20 ≤ b.length) (h0 : field b 96 4 = 0) :
    (∀ op : Tcp.Set, op.run b = (.panic, b) ∨ op.run b = (.err .io, b)) ∧
    ∀ v, Tcp.setChecksum v b = (.panic, b) := by
  have hs : Tcp.split b = .ok ([], b) := by
    rw [Tcp.split_eq hl (by omega), h0]; simp
  have hh : Tcp.header b = .ok [] := by unfold Tcp.header; rw [hs]; rfl
  constructor
  · intro op
    cases op with
    | source v => right; show Tcp.setSource v b = _; unfold Tcp.setSource onHeader; rw [hs]; rfl
    | destination v => left; show Tcp.setDestination v b = _; unfold Tcp.setDestination onHeader; rw [hs]; rfl
    | sequence v => left; show Tcp.setSequence v b = _; unfold Tcp.setSequence onHeader; rw [hs]; rfl
    | acknowledgment v =>
      left; show Tcp.setAcknowledgment v b = _; unfold Tcp.setAcknowledgment onHeader; rw [hs]; rfl
    | flags v =>
      left; show Tcp.setFlags v b = _
      unfold Tcp.setFlags
      rw [Mut.bind_apply]
      simp only [Mut.read, hh, Outcome.ok_bind]
      rfl
    | window v => left; show Tcp.setWindow v b = _; unfold Tcp.setWindow onHeader; rw [hs]; rfl
    | pointer v => left; show Tcp.setPointer v b = _; unfold Tcp.setPointer onHeader; rw [hs]; rfl
  · intro v
    unfold Tcp.setChecksum onHeader; rw [hs]; rfl

/-- C27 is false of the code: a `checked(ip)` session with a `set_flags` anywhere in it panics, at the latest when
the guard is dropped, on every accepted segment of legal data offset and whatever else is called.  It leaves the
flags in the segment, the data offset zero and the checksum as it was. -/
theorem C27_tcp_checked_flags_refuted (cfg : Cfg) (ip b : Bytes) (h : Tcp.new b = .ok b)
    (h5 : 5 ≤ field b 96 4) (before after : List Tcp.Set) (hbefore : ∀ op ∈ before, notFlags op) (f : TcpFlags) :
    ∃ b', Tcp.checkedRun cfg (.v4 ip) (before ++ .flags f :: after) b = (.panic, b') ∧
      b'.length = b.length ∧ field b' 96 16 = f.bits.toNat ∧ field b' 128 16 = field b 128 16 := by
  obtain ⟨b₁, e1, e2, e3, e4, -⟩ := tcp_history before b (segOk h h5) hbefore
  obtain ⟨b', k1, k2, k3, -, k5, k6⟩ := C27_tcp_set_flags_partial b₁
    (Tcp.new_ok_iff.2 ⟨rfl, e2.long, e2.header⟩) e2.offset f
  have hl := e2.long
  have h0 : field b' 96 4 = 0 := by
    have := field_add b' 96 4 3
    simp only [Nat.reduceAdd] at this
    omega
  have hw : field b' 96 16 = f.bits.toNat := by
    have := field_add b' 96 7 9
    simp only [Nat.reduceAdd] at this
    omega
  have hck : field b' 128 16 = field b 128 16 :=
    field_congr fun i hi1 hi2 => (k5 i (by omega)).trans (e4 i (by omega))
  obtain ⟨z1, z2⟩ := tcp_no_header (b := b') (by omega) h0
  have stuck : ∀ after : List Tcp.Set, runIgnoringErrors (after.map Tcp.Set.run) b' = (.panic, b') ∨
      runIgnoringErrors (after.map Tcp.Set.run) b' = (.ok (), b') := by
    intro after
    induction after with
    | nil => exact .inr rfl
    | cons op ops ih =>
      simp only [List.map_cons, runIgnoringErrors]
      rcases z1 op with hz | hz
      · rw [hz]; exact .inl rfl
      · rw [hz]; exact ih
  have whole : ∀ before : List Tcp.Set, ∀ b : Bytes,
      runIgnoringErrors (before.map Tcp.Set.run) b = (.ok (), b₁) →
      runIgnoringErrors ((before ++ .flags f :: after).map Tcp.Set.run) b =
        runIgnoringErrors (after.map Tcp.Set.run) b' := by
    intro before
    induction before with
    | nil =>
      intro b hb
      have hb : b = b₁ := congrArg Prod.snd hb
      subst hb
      simp only [List.nil_append, List.map_cons, runIgnoringErrors]
      rw [show Tcp.Set.run (.flags f) b = (.ok (), b') from k1]
    | cons op ops ih =>
      intro b hb
      simp only [List.map_cons, List.cons_append, runIgnoringErrors] at hb ⊢
      generalize op.run b = r at hb ⊢
      obtain ⟨o, c⟩ := r
      cases o with
      | panic => exact absurd (congrArg Prod.fst hb) (fun h => by cases h)
      | err e => exact ih c hb
      | ok u => exact ih c hb
  refine ⟨b', ?_, k2.trans e3, hw, hck⟩
  unfold Tcp.checkedRun
  rw [Mut.bind_apply, whole before b e1]
  rcases stuck after with hz | hz
  · rw [hz]
  · rw [hz]
    show ((Tcp.updateChecksum cfg (.v4 ip)).unwrap) b' = (.panic, b')
    unfold Mut.unwrap Tcp.updateChecksum
    rw [Mut.bind_apply]
    simp only [Mut.read]
    cases Tcp.checksumOf cfg (.v4 ip) b' with
    | ok c => simp only [z2]; rfl
    | err e => rfl
    | panic => rfl

/-- A concrete case that meets the hypotheses. -/
example (cfg : Cfg) (ip : Bytes) (after : List Tcp.Set) := C27_tcp_checked_flags_refuted cfg ip Sample.tcp (by decide)
    (by decide) [.window 7, .source 9] after (by simp [notFlags])

end Verif.Props

import Verif.Props.Sizes

/-! # C55: parsing a whole frame;  C63: writing through `payload_mut` -/

namespace Verif.Props
open Verif Verif.Spec

theorem returns_new {b : Bytes} : (Ether.new b).returns ∧ (V4.new b).returns ∧ (Udp.new b).returns ∧
    (Tcp.new b).returns ∧ (Icmp.new b).returns ∧ (Echo.new b).returns ∧ (Timestamp.new b).returns ∧
    (Information.new b).returns ∧ (Previous.new b).returns ∧ (Redirect.new b).returns ∧
    (ParamProblem.new b).returns := by
  obtain ⟨e1, e2, e3, e4, e5, e6⟩ := C35_icmp_typed_accept b
  rw [e1, e2, e3, e4, e5, e6, C10_ether_accept, V4.new_eq, (C21_udp_accept b).2, C24_tcp_accept,
    C34_icmp_accept]
  refine ⟨?_, ?_, ?_, ?_, ?_, ?_, ?_, ?_, ?_, ?_, ?_⟩
  all_goals
    repeat' split
    all_goals exact fun h => by cases h

theorem typed_same {i m : Bytes} (h : Previous.new i = .ok m ∨ Redirect.new i = .ok m ∨
    ParamProblem.new i = .ok m) : m = i ∧ 8 ≤ i.length := by
  obtain ⟨-, -, -, e4, e5, e6⟩ := C35_icmp_typed_accept i
  rw [e4, e5, e6] at h
  rcases h with h | h | h
  all_goals
    split at h
    · cases h
    · split at h
      · cases h; exact ⟨rfl, by omega⟩
      · cases h

theorem icmp_same {i tp : Bytes} (h : Icmp.new tp = .ok i) : i = tp := by
  rw [C34_icmp_accept] at h; split at h
  · cases h; rfl
  · cases h

theorem tcp_payload_part {t : Bytes} (h1 : 20 ≤ t.length) (h2 : field t 96 4 * 4 ≤ t.length) :
    ∃ d, Tcp.payload t = .ok d ∧ d <:+ t := by
  refine ⟨t.drop (field t 96 4 * 4), ?_, List.drop_suffix _ _⟩
  unfold Tcp.payload
  rw [Tcp.split_eq h1 h2]
  rfl

theorem quoted_part {i m : Bytes} (h : Previous.new i = .ok m ∨ Redirect.new i = .ok m ∨
    ParamProblem.new i = .ok m) :
    (Previous.packet m).returns ∧ ∀ q, Previous.packet m = .ok q → q <:+ i := by
  obtain ⟨rfl, h8⟩ := typed_same h
  have hq : Previous.packet m = V4.new (m.drop 8) := by
    unfold Previous.packet quotedPacket; rw [sliceFrom_ok h8]; rfl
  rw [hq]
  refine ⟨returns_new.2.1, fun q hq => ?_⟩
  rw [(V4.new_ok_iff.1 hq).1]
  exact List.drop_suffix _ _

/-- C55: for every byte string, parsing it as an Ethernet frame, the frame's payload as IPv4 and that
packet's payload as UDP, TCP or ICMP and every typed ICMP view never panics; the views are the stated bytes
of the frame; the accessors of the innermost packets do not panic either.  (Checksum verification of TCP is
C59, IP and TCP options are C13, C25 and C32, flags of IPv4 C13.) -/
theorem C55_stack_parse (cfg : Cfg) (b : Bytes) (hb : b.length < cfg.usizeMod) :
    (Ether.new b).returns ∧ ∀ e, Ether.new b = .ok e →
      ∃ pl, Ether.payload e = .ok pl ∧ pl = b.drop 14 ∧ (Ether.destination e).returns ∧
        (Ether.source e).returns ∧ (Ether.protocol e).returns ∧ (V4.new pl).returns ∧
      ∀ ip, V4.new pl = .ok ip →
        ∃ tp, V4.payload ip = .ok tp ∧
          tp = (b.drop (14 + 4 * field b 116 4)).take (field b 128 16 - 4 * field b 116 4) ∧
          (V4.protocol ip).returns ∧ (V4.source ip).returns ∧ (V4.destination ip).returns ∧
          (V4.isValid cfg ip).returns ∧
          (Udp.new tp).returns ∧ (Tcp.new tp).returns ∧ (Icmp.new tp).returns ∧
          (∀ u, Udp.new tp = .ok u →
            (∃ d, Udp.payload u = .ok d ∧ d <:+: tp) ∧
            (Udp.source u).returns ∧ (Udp.destination u).returns ∧ (Udp.length u).returns ∧
            (Udp.checksum u).returns ∧ (Udp.isValid cfg (.v4 ip) u).returns) ∧
          (∀ t, Tcp.new tp = .ok t →
            (∃ d, Tcp.payload t = .ok d ∧ d <:+ tp) ∧
            (Tcp.source t).returns ∧ (Tcp.destination t).returns ∧ (Tcp.sequence t).returns ∧
            (Tcp.acknowledgment t).returns ∧ (Tcp.offset t).returns ∧ (Tcp.flags t).returns ∧
            (Tcp.window t).returns ∧ (Tcp.checksum t).returns ∧ (Tcp.pointer t).returns) ∧
          (∀ i, Icmp.new tp = .ok i →
            (∃ d, Icmp.payload i = .ok d ∧ d <:+ tp) ∧
            (Icmp.kind i).returns ∧ (Icmp.code i).returns ∧ (Icmp.checksum i).returns ∧
            (Icmp.isValid cfg i).returns ∧
            (Echo.new i).returns ∧ (Timestamp.new i).returns ∧ (Information.new i).returns ∧
            (Previous.new i).returns ∧ (Redirect.new i).returns ∧ (ParamProblem.new i).returns ∧
            (∀ m, Previous.new i = .ok m ∨ Redirect.new i = .ok m ∨ ParamProblem.new i = .ok m →
              (Previous.packet m).returns ∧ ∀ q, Previous.packet m = .ok q → q <:+ tp)) := by
  refine ⟨returns_new.1, fun e he => ?_⟩
  have hl : 14 ≤ b.length ∧ e = b := by
    rw [C10_ether_accept] at he; split at he
    · cases he; exact ⟨‹_›, rfl⟩
    · cases he
  obtain ⟨hl, rfl⟩ := hl
  obtain ⟨⟨_, a1, -⟩, ⟨_, a2, -⟩, a3, -, a4, -⟩ := C10_ether_views cfg e hb he
  refine ⟨_, a4, rfl, returns_ok a1, returns_ok a2, returns_ok a3, returns_new.2.1, fun ip hip => ?_⟩
  obtain ⟨rfl, hok⟩ := V4.new_ok_iff.1 hip
  obtain ⟨-, b2, -⟩ := C15_v4_split _ hip
  have hlong := hok.long
  obtain ⟨-, -, -, -, -, -, -, -, c1, -, c2, c3, -, -, c4, -⟩ := C13_v4_accessors_total cfg _ hip
  refine ⟨_, b2, ?_, c1, c2, c3, c4, returns_new.2.2.1, returns_new.2.2.2.1, returns_new.2.2.2.2.1,
    fun u hu => ?_, fun t ht => ?_, fun i hi => ?_⟩
  · rw [field_drop, field_drop, List.drop_drop]
  · obtain ⟨rfl, h8, hlen⟩ := Udp.new_ok_iff.1 hu
    obtain ⟨d1, d2, d3, d4⟩ := C21_udp_fields _ h8
    obtain ⟨-, d5, -⟩ := C21_udp_views _ hu
    obtain ⟨v, hv⟩ := C59_udp_is_valid_total cfg _ _ hlong h8
    exact ⟨⟨_, d5, ((List.take_prefix _ _).isInfix.trans (List.drop_suffix _ _).isInfix)⟩,
      returns_ok d1, returns_ok d2, returns_ok d3, returns_ok d4, returns_ok hv⟩
  · obtain ⟨rfl, h20, hoff⟩ := Tcp.new_ok_iff.1 ht
    obtain ⟨d1, d2, d3, d4, d5, ⟨_, d6, -⟩, d7, d8, d9⟩ := C24_tcp_fields _ h20
    exact ⟨tcp_payload_part h20 hoff, returns_ok d1, returns_ok d2, returns_ok d3, returns_ok d4,
      returns_ok d5, returns_ok d6, returns_ok d7, returns_ok d8, returns_ok d9⟩
  · obtain rfl := icmp_same hi
    have hlen : ((e.drop 14).drop (4 * field (e.drop 14) 4 4)).length < cfg.usizeMod := by
      rw [List.length_drop, List.length_drop]; omega
    obtain ⟨d1, d2, d3, -, d5, -, -, -, d9⟩ := C34_icmp_views cfg _ (by rw [List.length_take]; omega) hi
    refine ⟨⟨_, d5, List.drop_suffix _ _⟩, returns_ok d1, returns_ok d2, returns_ok d3, d9,
      returns_new.2.2.2.2.2.1, returns_new.2.2.2.2.2.2.1, returns_new.2.2.2.2.2.2.2.1,
      returns_new.2.2.2.2.2.2.2.2.1, returns_new.2.2.2.2.2.2.2.2.2.1,
      returns_new.2.2.2.2.2.2.2.2.2.2, fun m hm => ?_⟩
    exact quoted_part hm

/-- The hypotheses are met at every level: an Ethernet frame with a UDP datagram. -/
example :
    let u : Bytes := [0, 53, 0, 54, 0, 10, 0, 0, 1, 2]
    let ip : Bytes := [0x45, 0, 0, 30, 0, 0, 0, 0, 64, 17, 0, 0, 10, 0, 0, 1, 10, 0, 0, 2] ++ u
    Ether.new (zeros 12 ++ [8, 0] ++ ip) = .ok (zeros 12 ++ [8, 0] ++ ip) ∧
    Ether.payload (zeros 12 ++ [8, 0] ++ ip) = .ok ip ∧ V4.new ip = .ok ip ∧ V4.payload ip = .ok u ∧
    Udp.new u = .ok u ∧ Udp.payload u = .ok [1, 2] := by decide

/-! ## C63 -/

/-- Writing through `payload_mut()` is seen by `payload()` and by nothing else: with bytes of the right
length the write succeeds, the packet is still accepted, `payload()` is what was written, `header()` is as
before and no byte outside the payload changed; with another length `copy_from_slice` panics and nothing
is written. -/
def PayloadWritable (k : Kind) (b : Bytes) : Prop :=
  ∃ p st, k.payload b = .ok p ∧ k.payloadAt b = .ok st ∧ p = (b.drop st).take p.length ∧
    ∀ v : Bytes,
      (v.length = p.length → ∃ b', k.writePayload v b = (.ok (), b') ∧ k.new b' = .ok b' ∧
        k.payload b' = .ok v ∧ k.header b' = k.header b ∧ SameOutside b b' st (st + p.length)) ∧
      (v.length ≠ p.length → k.writePayload v b = (.panic, b))

theorem payloadWritable_of {k : Kind} {b : Bytes} (st n hd : Nat) (hh : hd ≤ st)
    (hst : k.payloadAt b = .ok st) (hn : st + n ≤ b.length)
    (hs : ∀ b' : Bytes, SameOutside b b' st (st + n) → k.new b' = .ok b' ∧
      k.split b' = .ok (b'.take hd, (b'.drop st).take n)) : PayloadWritable k b := by
  have hs0 := (hs b ⟨rfl, fun _ _ => rfl⟩).2
  have hlen : ((b.drop st).take n).length = n := by rw [List.length_take, List.length_drop]; omega
  have hp : k.payload b = .ok ((b.drop st).take n) := by unfold Kind.payload; rw [hs0]; rfl
  refine ⟨(b.drop st).take n, st, hp, hst, by rw [hlen], fun v => ⟨fun hv => ?_, fun hv => ?_⟩⟩
  · rw [hlen] at hv
    have heq : b.take st ++ v ++ b.drop (st + v.length) = put b st v := rfl
    have hso : SameOutside b (put b st v) st (st + n) := by
      have := sameOutside_put (b := b) (off := st) (bs := v) (by omega)
      rwa [hv] at this
    obtain ⟨g1, g2⟩ := hs _ hso
    refine ⟨put b st v, ?_, g1, ?_, ?_, by rw [hlen]; exact hso⟩
    · unfold Kind.writePayload
      rw [hs0, hst]
      simp only [hlen]
      rw [if_pos hv.symm, heq]
    · unfold Kind.payload
      rw [g2, Outcome.ok_bind]
      congr 1
      show List.take n (List.drop st (b.take st ++ v ++ b.drop (st + v.length))) = v
      rw [List.append_assoc, List.drop_left' (by rw [List.length_take]; omega), ← hv, List.take_left]
    · unfold Kind.header
      rw [g2, hs0, Outcome.ok_bind, Outcome.ok_bind]
      congr 1
      show List.take hd (b.take st ++ v ++ b.drop (st + v.length)) = _
      rw [List.append_assoc, List.take_append_of_le_length (by rw [List.length_take]; omega),
        List.take_take, Nat.min_eq_left hh]
  · unfold Kind.writePayload
    rw [hs0, hst]
    simp only [hlen]
    rw [if_neg (fun h => hv (by rw [hlen]; exact h.symm))]

theorem field_same {b b' : Bytes} {lo hi s w : Nat} (h : SameOutside b b' lo hi) (hs : s + w ≤ 8 * lo) :
    field b' s w = field b s w :=
  field_congr fun i _ h2 => bitAt_congr (h.frame _ (.inl (by omega)))

theorem typed_inv {b : Bytes} {n : Nat} {ks : List Nat} (h : (if b.length < n then .err .smallBuffer
    else if field b 0 8 ∈ ks then .ok b else .err .invalidPacket) = Outcome.ok b) :
    n ≤ b.length ∧ field b 0 8 ∈ ks := by
  split at h
  · cases h
  · split at h
    · exact ⟨by omega, ‹_›⟩
    · cases h

/-- The payload of an accepted IPv4 packet whose header contains the total length. -/
theorem v4_payload_writable {b : Bytes} (h : V4.new b = .ok b) (h1 : 1 ≤ field b 4 4) : PayloadWritable .v4 b := by
  obtain ⟨-, hok⟩ := V4.new_ok_iff.1 h
  have h20 := hok.long; have hv := hok.version; have hh := hok.header; have ht := hok.total
  refine payloadWritable_of (field b 4 4 * 4) (field b 16 16 - field b 4 4 * 4) (field b 4 4 * 4)
    (Nat.le_refl _) (V4.headerSize_eq (by omega)) (by omega) fun b' hs => ?_
  have e1 := field_same (s := 4) (w := 4) hs (by omega)
  have e2 := field_same (s := 16) (w := 16) hs (by omega)
  have e3 := field_same (s := 0) (w := 4) hs (by omega)
  constructor
  · exact V4.new_ok_iff.2 ⟨rfl, ⟨⟨by rw [hs.length]; exact h20, by rw [e3]; exact hv,
      by rw [e1, hs.length]; exact hh⟩, by rw [e2, hs.length]; exact ht⟩⟩
  · have := V4.split_eq (b := b') (by rw [hs.length]; omega) (by rw [e1, hs.length]; exact hh)
    rw [e1, e2] at this
    exact this

/-- C63: for every accepted packet of every type (for IPv4 and TCP: with a header length of at least 20). -/
theorem C63_payload_mut (b : Bytes) :
    (Ether.new b = .ok b → PayloadWritable .ether b) ∧
    (V4.new b = .ok b → 5 ≤ field b 4 4 → PayloadWritable .v4 b) ∧
    (Udp.new b = .ok b → PayloadWritable .udp b) ∧
    (Tcp.new b = .ok b → 5 ≤ field b 96 4 → PayloadWritable .tcp b) ∧
    (Icmp.new b = .ok b → PayloadWritable .icmp b) ∧
    (Echo.new b = .ok b → PayloadWritable .echo b) ∧
    (Timestamp.new b = .ok b → PayloadWritable .timestamp b) ∧
    (Information.new b = .ok b → PayloadWritable .information b) ∧
    (Previous.new b = .ok b → PayloadWritable .previous b) ∧
    (Redirect.new b = .ok b → PayloadWritable .redirect b) ∧
    (ParamProblem.new b = .ok b → PayloadWritable .parameterProblem b) := by
  have all : ∀ (b' : Bytes) (st : Nat), b'.length = b.length →
      (b'.drop st).take (b.length - st) = b'.drop st := by
    intro b' st h
    exact List.take_of_length_le (by rw [List.length_drop]; omega)
  refine ⟨fun h => ?_, fun h h5 => ?_, fun h => ?_, fun h h5 => ?_, fun h => ?_, fun h => ?_, fun h => ?_,
    fun h => ?_, fun h => ?_, fun h => ?_, fun h => ?_⟩
  · have hl : 14 ≤ b.length := by
      rw [C10_ether_accept] at h; split at h
      · assumption
      · cases h
    refine payloadWritable_of 14 (b.length - 14) 14 (Nat.le_refl _) rfl (by omega) fun b' hs => ?_
    rw [all b' 14 hs.length]
    refine ⟨(C10_ether_accept b').trans (if_pos (by rw [hs.length]; exact hl)), splitAt_ok (by rw [hs.length]; exact hl)⟩
  · exact v4_payload_writable h (by omega)
  · obtain ⟨-, h8, hlen⟩ := Udp.new_ok_iff.1 h
    refine payloadWritable_of 8 (field b 32 16 - 8) 8 (Nat.le_refl _) rfl (by omega) fun b' hs => ?_
    have e1 := field_same (s := 32) (w := 16) hs (by omega)
    constructor
    · exact Udp.new_ok_iff.2 ⟨rfl, by rw [hs.length]; exact h8, by rw [e1, hs.length]; exact hlen⟩
    · have := Udp.split_eq (b := b') (by rw [hs.length]; omega)
      rw [e1] at this
      exact this
  · obtain ⟨-, h20, hlen⟩ := Tcp.new_ok_iff.1 h
    have hsz : Tcp.headerSize b = .ok (field b 96 4 * 4) := by
      unfold Tcp.headerSize
      rw [Tcp.offset_field (by omega)]; simp only [Outcome.ok_bind, Tcp.offset_toNat]
    refine payloadWritable_of (field b 96 4 * 4) (b.length - field b 96 4 * 4) (field b 96 4 * 4)
      (Nat.le_refl _) hsz (by omega) fun b' hs => ?_
    have e1 := field_same (s := 96) (w := 4) hs (by omega)
    rw [all b' _ hs.length]
    constructor
    · exact Tcp.new_ok_iff.2 ⟨rfl, by rw [hs.length]; exact h20, by rw [e1, hs.length]; exact hlen⟩
    · have := Tcp.split_eq (b := b') (by rw [hs.length]; omega) (by rw [e1, hs.length]; exact hlen)
      rw [e1] at this
      exact this
  · have hl : 4 ≤ b.length := by
      rw [C34_icmp_accept] at h; split at h
      · assumption
      · cases h
    refine payloadWritable_of 4 (b.length - 4) 4 (Nat.le_refl _) rfl (by omega) fun b' hs => ?_
    rw [all b' 4 hs.length]
    refine ⟨(C34_icmp_accept b').trans (if_pos (by rw [hs.length]; exact hl)), splitAt_ok (by rw [hs.length]; exact hl)⟩
  all_goals
    obtain ⟨e1, e2, e3, e4, e5, e6⟩ := C35_icmp_typed_accept b
  · rw [e1] at h
    obtain ⟨hl, hk⟩ := typed_inv h
    refine payloadWritable_of 8 (b.length - 8) 8 (Nat.le_refl _) rfl (by omega) fun b' hs => ?_
    have e1 := field_same (s := 0) (w := 8) hs (by omega)
    rw [all b' 8 hs.length]
    exact ⟨(C35_icmp_typed_accept b').1.trans (by rw [hs.length, e1, if_neg (by omega), if_pos hk]),
      splitAt_ok (by rw [hs.length]; omega)⟩
  · rw [e2] at h
    obtain ⟨hl, hk⟩ := typed_inv h
    refine payloadWritable_of 8 (b.length - 8) 8 (Nat.le_refl _) rfl (by omega) fun b' hs => ?_
    have e1 := field_same (s := 0) (w := 8) hs (by omega)
    rw [all b' 8 hs.length]
    exact ⟨(C35_icmp_typed_accept b').2.1.trans (by rw [hs.length, e1, if_neg (by omega), if_pos hk]),
      splitAt_ok (by rw [hs.length]; omega)⟩
  · rw [e3] at h
    obtain ⟨hl, hk⟩ := typed_inv h
    refine payloadWritable_of 8 (b.length - 8) 8 (Nat.le_refl _) rfl (by omega) fun b' hs => ?_
    have e1 := field_same (s := 0) (w := 8) hs (by omega)
    rw [all b' 8 hs.length]
    exact ⟨(C35_icmp_typed_accept b').2.2.1.trans (by rw [hs.length, e1, if_neg (by omega), if_pos hk]),
      splitAt_ok (by rw [hs.length]; omega)⟩
  · rw [e4] at h
    obtain ⟨hl, hk⟩ := typed_inv h
    refine payloadWritable_of 8 (b.length - 8) 4 (by omega) rfl (by omega) fun b' hs => ?_
    have e1 := field_same (s := 0) (w := 8) hs (by omega)
    rw [all b' 8 hs.length]
    exact ⟨(C35_icmp_typed_accept b').2.2.2.1.trans (by rw [hs.length, e1, if_neg (by omega), if_pos hk]),
      previous_split (by rw [hs.length]; omega)⟩
  · rw [e5] at h
    obtain ⟨hl, hk⟩ := typed_inv h
    refine payloadWritable_of 8 (b.length - 8) 8 (Nat.le_refl _) rfl (by omega) fun b' hs => ?_
    have e1 := field_same (s := 0) (w := 8) hs (by omega)
    rw [all b' 8 hs.length]
    exact ⟨(C35_icmp_typed_accept b').2.2.2.2.1.trans (by rw [hs.length, e1, if_neg (by omega), if_pos hk]),
      splitAt_ok (by rw [hs.length]; omega)⟩
  · rw [e6] at h
    obtain ⟨hl, hk⟩ := typed_inv h
    refine payloadWritable_of 8 (b.length - 8) 5 (by omega) rfl (by omega) fun b' hs => ?_
    have e1 := field_same (s := 0) (w := 8) hs (by omega)
    rw [all b' 8 hs.length]
    exact ⟨(C35_icmp_typed_accept b').2.2.2.2.2.trans (by rw [hs.length, e1, if_neg (by omega), if_pos hk]),
      paramProblem_split (by rw [hs.length]; omega)⟩

/-- The condition of C63 on the header length is needed: the accepted IPv4 packet with
IHL 0 has its whole self as payload, and writing it breaks the packet. -/
theorem C63_short_header_needed :
    (∃ b, V4.new b = .ok b ∧ ¬ PayloadWritable .v4 b) ∧ (∃ b, Tcp.new b = .ok b ∧ ¬ PayloadWritable .tcp b) := by
  refine ⟨⟨[0x40, 0, 0, 20] ++ zeros 16, by decide, ?_⟩, ⟨zeros 20, by decide, ?_⟩⟩
  · rintro ⟨p, st, h1, h2, h3, h4⟩
    have e1 : Kind.payload .v4 ([0x40, 0, 0, 20] ++ zeros 16) = .ok ([0x40, 0, 0, 20] ++ zeros 16) := by decide
    rw [e1] at h1
    cases h1
    obtain ⟨b', w1, w2, -⟩ := (h4 (zeros 20)).1 (by decide)
    have e2 : Kind.writePayload .v4 (zeros 20) ([0x40, 0, 0, 20] ++ zeros 16) = (.ok (), zeros 20) := by decide
    rw [e2] at w1
    cases w1
    revert w2
    decide
  · rintro ⟨p, st, h1, h2, h3, h4⟩
    have e1 : Kind.payload .tcp (zeros 20) = .ok (zeros 20) := by decide
    rw [e1] at h1
    cases h1
    obtain ⟨b', w1, w2, w3, -⟩ := (h4 (zeros 12 ++ [0x50] ++ zeros 7)).1 (by decide)
    have e2 : Kind.writePayload .tcp (zeros 12 ++ [0x50] ++ zeros 7) (zeros 20) =
      (.ok (), zeros 12 ++ [0x50] ++ zeros 7) := by decide
    rw [e2] at w1
    cases w1
    revert w3
    decide

end Verif.Props

import Verif.Lemmas.BuildTcp
import Verif.Lemmas.BuildIcmp

/-! # Reading back the wire formats -/

namespace Verif
open Verif Verif.Spec

theorem readU16At_be16 {b : Bytes} {off : Nat} {v : U16} (h : off + 2 ≤ b.length)
    (h0 : [b.getD off 0#8, b.getD (off + 1) 0#8] = be16 v) : readU16At b off = .ok v := by
  rw [readU16At_ok h]
  have e := fromBe16_be16 v
  unfold be16 at h0
  injection h0 with h1 h2
  injection h2 with h2 _
  rw [h1, h2, e]

theorem readU32At_be32 {b : Bytes} {off : Nat} {v : U32} (h : off + 4 ≤ b.length)
    (h0 : [b.getD off 0#8, b.getD (off + 1) 0#8, b.getD (off + 2) 0#8, b.getD (off + 3) 0#8] = be32 v) :
    readU32At b off = .ok v := by
  rw [readU32At_ok h]
  have e := fromBe32_be32 v
  unfold be32 at h0
  injection h0 with h1 h2
  injection h2 with h2 h3
  injection h3 with h3 h4
  injection h4 with h4 _
  rw [h1, h2, h3, h4, e]

/-! ## Ethernet -/

theorem ether_view (dst src : HwAddr) (type : U16) (payload : Bytes) :
    Ether.new (ethernetFrame dst.octets src.octets type payload)
      = .ok (ethernetFrame dst.octets src.octets type payload) ∧
    Ether.destination (ethernetFrame dst.octets src.octets type payload) = .ok dst ∧
    Ether.source (ethernetFrame dst.octets src.octets type payload) = .ok src ∧
    Ether.protocol (ethernetFrame dst.octets src.octets type payload) = .ok (EtherProtocol.ofWire type) ∧
    Ether.payload (ethernetFrame dst.octets src.octets type payload) = .ok payload := by
  have hl : (ethernetFrame dst.octets src.octets type payload).length = 14 + payload.length := by
    simp [ethernetFrame, HwAddr.octets, be16]; omega
  refine ⟨?_, ?_, ?_, ?_, ?_⟩
  · unfold Ether.new Ether.headerMin; rw [if_neg (by omega)]
  · unfold Ether.destination; rw [slice_ok (by omega) (by omega)]; rfl
  · unfold Ether.source; rw [slice_ok (by omega) (by omega)]; rfl
  · unfold Ether.protocol; rw [readU16At_be16 (v := type) (by omega) rfl]; rfl
  · unfold Ether.payload Ether.split; rw [splitAt_ok (by omega)]; rfl

/-! ## IPv4 -/

/-- Every accessor of `ip::v4::Packet` on a header without options. -/
theorem v4_view (f : Ipv4Fields) (s d : Ipv4Addr) (hs : f.src = s.octets) (hd : f.dst = d.octets)
    (total ck : U16) (rest : Bytes) :
    V4.version (ipv4Header f total ck ++ rest) = .ok 4 ∧
    V4.ihl (ipv4Header f total ck ++ rest) = .ok 5 ∧
    V4.dscp (ipv4Header f total ck ++ rest) = .ok (f.tos >>> 2) ∧
    V4.ecn (ipv4Header f total ck ++ rest) = .ok (f.tos &&& 0b11#8) ∧
    V4.length (ipv4Header f total ck ++ rest) = .ok total ∧
    V4.id (ipv4Header f total ck ++ rest) = .ok f.id ∧
    V4.ttl (ipv4Header f total ck ++ rest) = .ok f.ttl ∧
    V4.protocol (ipv4Header f total ck ++ rest) = .ok (IpProtocol.ofWire f.protocol) ∧
    V4.checksum (ipv4Header f total ck ++ rest) = .ok ck ∧
    V4.source (ipv4Header f total ck ++ rest) = .ok s ∧
    V4.destination (ipv4Header f total ck ++ rest) = .ok d ∧
    V4.header (ipv4Header f total ck ++ rest) = .ok (ipv4Header f total ck) ∧
    readU16At (ipv4Header f total ck ++ rest) 6 = .ok f.fragment := by
  have hok : Ipv4Fields.ok f := ⟨⟨s, hs⟩, ⟨d, hd⟩⟩
  have hl := hok.length total ck
  have hln : (ipv4Header f total ck ++ rest).length = 20 + rest.length := by simp [hl]
  refine ⟨rfl, rfl, rfl, rfl, ?_, ?_, rfl, rfl, ?_, ?_, ?_, ?_, ?_⟩
  · exact readU16At_be16 (by omega) rfl
  · exact readU16At_be16 (by omega) rfl
  · exact readU16At_be16 (by omega) rfl
  · obtain ⟨tos, id, fragment, ttl, protocol, src, dst⟩ := f
    cases hs
    rfl
  · obtain ⟨tos, id, fragment, ttl, protocol, src, dst⟩ := f
    cases hs
    cases hd
    rfl
  · rw [V4.header_eq (by omega) (by rw [ipv4Header_ihl]; omega), ipv4Header_ihl, List.take_left' hl]
  · exact readU16At_be16 (by omega) rfl

theorem v4_total (f : Ipv4Fields) (total ck : U16) (rest : Bytes) :
    field (ipv4Header f total ck ++ rest) 16 16 = total.toNat := by
  have h := field_u16 (ipv4Header f total ck ++ rest) 2
  rw [show 8 * 2 = 16 from rfl] at h
  rw [h]
  have e1 : (ipv4Header f total ck ++ rest).getD 2 0#8 = BitVec.ofNat 8 (total.toNat / 256) := rfl
  have e2 : (ipv4Header f total ck ++ rest).getD (2 + 1) 0#8 = BitVec.ofNat 8 total.toNat := rfl
  rw [e1, e2]
  have := total.isLt
  simp only [BitVec.toNat_ofNat]
  omega

theorem v4_accepted {f : Ipv4Fields} (hf : Ipv4Fields.ok f) (total ck : U16) (rest : Bytes)
    (h : total.toNat ≤ 20 + rest.length) :
    V4.new (ipv4Header f total ck ++ rest) = .ok (ipv4Header f total ck ++ rest) := by
  have hl := hf.length total ck
  have hln : (ipv4Header f total ck ++ rest).length = 20 + rest.length := by simp [hl]
  refine V4.new_ok_iff.2 ⟨rfl, ⟨⟨by omega, ipv4Header_version .., ?_⟩, ?_⟩⟩
  · rw [ipv4Header_ihl]; omega
  · rw [v4_total]; omega

theorem v4_payload_view {f : Ipv4Fields} (hf : Ipv4Fields.ok f) (total ck : U16) (rest : Bytes)
    (h : total.toNat = 20 + rest.length) :
    V4.payload (ipv4Header f total ck ++ rest) = .ok rest := by
  have hl := hf.length total ck
  have hln : (ipv4Header f total ck ++ rest).length = 20 + rest.length := by simp [hl]
  rw [V4.payload_eq (by omega) (by rw [ipv4Header_ihl]; omega), ipv4Header_ihl, v4_total, h,
    show 5 * 4 = 20 from rfl, List.drop_left' hl, List.take_of_length_le (by omega)]

theorem v4_valid (cfg : Cfg) {f : Ipv4Fields} (hf : Ipv4Fields.ok f) (total ck : U16) (rest : Bytes)
    (h : V4.checksumOf cfg (ipv4Header f total 0#16) = .ok ck) :
    V4.isValid cfg (ipv4Header f total ck ++ rest) = .ok true := by
  obtain ⟨⟨s, hs⟩, ⟨d, hd⟩⟩ := id hf
  obtain ⟨-, -, -, -, -, -, -, -, hck, -, -, hh, -⟩ := v4_view f s d hs hd total ck rest
  unfold V4.isValid
  rw [hh, hck]
  simp only [Outcome.ok_bind]
  rw [v4_checksum_skip cfg hf, h]
  simp

/-! ## UDP -/

theorem udp_view (sport dport len ck : U16) (payload : Bytes) :
    Udp.source (udpHeader sport dport len ck ++ payload) = .ok sport ∧
    Udp.destination (udpHeader sport dport len ck ++ payload) = .ok dport ∧
    Udp.length (udpHeader sport dport len ck ++ payload) = .ok len ∧
    Udp.checksum (udpHeader sport dport len ck ++ payload) = .ok ck ∧
    (len.toNat ≤ 8 + payload.length →
      Udp.new (udpHeader sport dport len ck ++ payload) = .ok (udpHeader sport dport len ck ++ payload)) ∧
    (len.toNat = 8 + payload.length →
      Udp.payload (udpHeader sport dport len ck ++ payload) = .ok payload) := by
  have hl : (udpHeader sport dport len ck ++ payload).length = 8 + payload.length := by
    simp [udpHeader, be16]; omega
  have h4 : Udp.length (udpHeader sport dport len ck ++ payload) = .ok len :=
    readU16At_be16 (by omega) rfl
  have hf : field (udpHeader sport dport len ck ++ payload) 32 16 = len.toNat := by
    have := Udp.length_field (b := udpHeader sport dport len ck ++ payload) (by omega)
    rw [h4] at this
    injection this with this
    have h2 := congrArg BitVec.toNat this
    rw [ofNat_field_toNat _ 32 16] at h2
    exact h2.symm
  refine ⟨readU16At_be16 (by omega) rfl, readU16At_be16 (by omega) rfl, h4,
    readU16At_be16 (by omega) rfl, ?_, ?_⟩
  · intro h
    exact Udp.new_ok_iff.2 ⟨rfl, by omega, by rw [hf]; omega⟩
  · intro h
    unfold Udp.payload
    rw [Udp.split_eq (by omega), hf, h]
    simp only [Outcome.ok_bind]
    congr 1
    have : (udpHeader sport dport len ck ++ payload).drop 8 = payload := rfl
    rw [this, List.take_of_length_le (by omega)]

theorem udp_checksum_skip (cfg : Cfg) (ip : Bytes) (hip : 20 ≤ ip.length) (sport dport len ck : U16)
    (payload : Bytes) : Udp.checksumOf cfg (.v4 ip) (udpHeader sport dport len ck ++ payload) =
      Udp.checksumOf cfg (.v4 ip) (udpHeader sport dport len 0#16 ++ payload) := by
  have hl : (udpHeader sport dport len 0#16 ++ payload).length = 8 + payload.length := by
    simp [udpHeader, be16]; omega
  have e : udpHeader sport dport len ck ++ payload =
      put (udpHeader sport dport len 0#16 ++ payload) 6 (be16 ck) := rfl
  rw [e, Udp.checksumOf_eq _ _ _ hip, Udp.checksumOf_eq _ _ _ hip, length_put (by rw [be16_length]; omega),
    Props.loopWords_put16 3 _ _ (by omega), oddWord_put (by rw [be16_length]; omega)]

/-! ## TCP -/

theorem tcp_view (f : TcpFields) (word ck : U16) (payload : Bytes) :
    Tcp.source (tcpHeader f word ck ++ payload) = .ok f.sport ∧
    Tcp.destination (tcpHeader f word ck ++ payload) = .ok f.dport ∧
    Tcp.sequence (tcpHeader f word ck ++ payload) = .ok f.seq ∧
    Tcp.acknowledgment (tcpHeader f word ck ++ payload) = .ok f.ack ∧
    Tcp.window (tcpHeader f word ck ++ payload) = .ok f.window ∧
    Tcp.pointer (tcpHeader f word ck ++ payload) = .ok f.pointer ∧
    Tcp.checksum (tcpHeader f word ck ++ payload) = .ok ck ∧
    readU16At (tcpHeader f word ck ++ payload) 12 = .ok word := by
  have hl : (tcpHeader f word ck ++ payload).length = 20 + payload.length := by
    simp [tcpHeader_length]
  exact ⟨readU16At_be16 (by omega) rfl, readU16At_be16 (by omega) rfl, readU32At_be32 (by omega) rfl,
    readU32At_be32 (by omega) rfl, readU16At_be16 (by omega) rfl, readU16At_be16 (by omega) rfl,
    readU16At_be16 (by omega) rfl, readU16At_be16 (by omega) rfl⟩

theorem tcp_flags_view (f : TcpFields) (word ck : U16) (payload : Bytes) (g : TcpFlags)
    (h : word &&& 0b1_1111_1111#16 = g.bits) : Tcp.flags (tcpHeader f word ck ++ payload) = .ok g := by
  unfold Tcp.flags
  rw [(tcp_view f word ck payload).2.2.2.2.2.2.2]
  simp only [Outcome.ok_bind]
  rw [h]
  unfold TcpFlags.fromBits
  rw [dif_pos g.valid]

theorem tcp_offset_view (f : TcpFields) (word ck : U16) (payload : Bytes) :
    Tcp.offset (tcpHeader f word ck ++ payload) = .ok (BitVec.ofNat 8 (word.toNat / 4096)) := by
  have hl : (tcpHeader f word ck ++ payload).length = 20 + payload.length := by
    simp [tcpHeader_length]
  rw [Tcp.offset_field (by omega), tcpHeader_offset]

theorem finalWord_offset (g : TcpFlags) : (0x5000#16 ||| g.bits).toNat / 4096 = 5 := by
  have h : ∀ n, n < 512 → (0x5000#16 ||| BitVec.ofNat 16 n).toNat / 4096 = 5 := by decide +kernel
  have := h g.bits.toNat g.lt
  rwa [BitVec.ofNat_toNat, BitVec.setWidth_eq] at this

theorem finalWord_flags (g : TcpFlags) : (0x5000#16 ||| g.bits) &&& 0b1_1111_1111#16 = g.bits := by
  have h : ∀ n, n < 512 → (0x5000#16 ||| BitVec.ofNat 16 n) &&& 0b1_1111_1111#16 = BitVec.ofNat 16 n := by
    decide +kernel
  have := h g.bits.toNat g.lt
  rwa [BitVec.ofNat_toNat, BitVec.setWidth_eq] at this

/-- A finished TCP header is accepted and split after 20 bytes. -/
theorem tcp_final_view (f : TcpFields) (g : TcpFlags) (ck : U16) (payload : Bytes) :
    Tcp.new (tcpHeader f (0x5000#16 ||| g.bits) ck ++ payload)
      = .ok (tcpHeader f (0x5000#16 ||| g.bits) ck ++ payload) ∧
    Tcp.offset (tcpHeader f (0x5000#16 ||| g.bits) ck ++ payload) = .ok 5 ∧
    Tcp.flags (tcpHeader f (0x5000#16 ||| g.bits) ck ++ payload) = .ok g ∧
    Tcp.payload (tcpHeader f (0x5000#16 ||| g.bits) ck ++ payload) = .ok payload ∧
    Tcp.options (tcpHeader f (0x5000#16 ||| g.bits) ck ++ payload) = .ok [] := by
  have hl : (tcpHeader f (0x5000#16 ||| g.bits) ck ++ payload).length = 20 + payload.length := by
    simp [tcpHeader_length]
  have ho := tcpHeader_offset f (0x5000#16 ||| g.bits) ck payload
  rw [finalWord_offset] at ho
  have hov := tcp_offset_view f (0x5000#16 ||| g.bits) ck payload
  rw [finalWord_offset] at hov
  refine ⟨Tcp.new_ok_iff.2 ⟨rfl, by omega, by omega⟩, hov, tcp_flags_view _ _ _ _ _ (finalWord_flags g),
    ?_, ?_⟩
  · unfold Tcp.payload
    rw [Tcp.split_eq (by omega) (by omega), ho]
    rfl
  · unfold Tcp.options
    rw [hov]
    simp only [Outcome.ok_bind]
    rw [slice_ok (by decide) (by rw [hl]; exact Nat.le_add_right 20 _)]
    rfl

theorem tcp_checksum_skip (cfg : Cfg) (ip : Bytes) (hip : 20 ≤ ip.length) (f : TcpFields) (word ck : U16)
    (payload : Bytes) (hp : payload.length ≤ 130000) :
    Tcp.checksumOf cfg (.v4 ip) (tcpHeader f word ck ++ payload) =
      Tcp.checksumOf cfg (.v4 ip) (tcpHeader f word 0#16 ++ payload) := by
  have hl : (tcpHeader f word 0#16 ++ payload).length = 20 + payload.length := by
    simp [tcpHeader_length]
  have e : tcpHeader f word ck ++ payload = put (tcpHeader f word 0#16 ++ payload) 16 (be16 ck) := rfl
  have hpl : 16 + (be16 ck).length ≤ (tcpHeader f word 0#16 ++ payload).length := by rw [be16_length]; omega
  rw [e, Tcp.checksumOf_eq _ _ _ hip (by rw [length_put hpl]; omega), Tcp.checksumOf_eq _ _ _ hip (by omega),
    length_put hpl, Props.loopWords_put16 8 _ _ (by omega), oddWord_put (by rw [be16_length]; omega)]

/-! ## ICMP -/

theorem echoHeader_view (type : U8) (ck id seq : U16) (payload : Bytes) :
    Icmp.new (icmpEchoHeader type ck id seq ++ payload) = .ok (icmpEchoHeader type ck id seq ++ payload) ∧
    Icmp.kind (icmpEchoHeader type ck id seq ++ payload) = .ok (IcmpKind.ofWire type) ∧
    Icmp.code (icmpEchoHeader type ck id seq ++ payload) = .ok 0 ∧
    Icmp.checksum (icmpEchoHeader type ck id seq ++ payload) = .ok ck ∧
    Echo.identifier (icmpEchoHeader type ck id seq ++ payload) = .ok id ∧
    Echo.sequence (icmpEchoHeader type ck id seq ++ payload) = .ok seq ∧
    Echo.payload (icmpEchoHeader type ck id seq ++ payload) = .ok payload := by
  have hl : (icmpEchoHeader type ck id seq ++ payload).length = 8 + payload.length := by
    simp [icmpEchoHeader, be16]; omega
  refine ⟨?_, rfl, rfl, readU16At_be16 (by omega) rfl, readU16At_be16 (by omega) rfl,
    readU16At_be16 (by omega) rfl, ?_⟩
  · unfold Icmp.new Icmp.headerMin; rw [if_neg (by omega)]
  · unfold Echo.payload Echo.split; rw [splitAt_ok (by omega)]; rfl

theorem timestamp_view (type : U8) (ck id seq : U16) (o r t : U32) :
    Icmp.new (icmpTimestamp type ck id seq o r t) = .ok (icmpTimestamp type ck id seq o r t) ∧
    Icmp.kind (icmpTimestamp type ck id seq o r t) = .ok (IcmpKind.ofWire type) ∧
    Icmp.code (icmpTimestamp type ck id seq o r t) = .ok 0 ∧
    Icmp.checksum (icmpTimestamp type ck id seq o r t) = .ok ck ∧
    Timestamp.identifier (icmpTimestamp type ck id seq o r t) = .ok id ∧
    Timestamp.sequence (icmpTimestamp type ck id seq o r t) = .ok seq ∧
    Timestamp.originate (icmpTimestamp type ck id seq o r t) = .ok o ∧
    Timestamp.receive (icmpTimestamp type ck id seq o r t) = .ok r ∧
    Timestamp.transmit (icmpTimestamp type ck id seq o r t) = .ok t := by
  have hl : (icmpTimestamp type ck id seq o r t).length = 20 := by
    simp [icmpTimestamp, be16, be32]
  refine ⟨?_, rfl, rfl, readU16At_be16 (by omega) rfl, readU16At_be16 (by omega) rfl,
    readU16At_be16 (by omega) rfl, readU32At_be32 (by omega) rfl, readU32At_be32 (by omega) rfl,
    readU32At_be32 (by omega) rfl⟩
  unfold Icmp.new Icmp.headerMin; rw [if_neg (by omega)]

/-- A message that stores the checksum of itself with a zero checksum field is valid. -/
theorem icmp_valid (cfg : Cfg) (m : Bytes) (hm : 4 ≤ m.length) (ck : U16)
    (h : Icmp.checksumOf cfg m = .ok ck) : Icmp.isValid cfg (put m 2 (be16 ck)) = .ok true := by
  unfold Icmp.isValid Icmp.checksum
  rw [icmp_checksum_skip cfg m hm, h, readU16At_put (by omega)]
  simp

end Verif

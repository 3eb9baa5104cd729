import Verif.Props.BuildersStack
import Verif.Props.Enums
import Verif.Props.Ether
import Verif.Props.BuilderWords
import Verif.Props.Icmp
import Verif.Lemmas.History
import Verif.Samples

/-! # C95: a packet can be rebuilt from what its accessors return -/

namespace Verif.Props
open Verif Verif.Spec

/-! ## The copying program -/

/-- Read the fields of an IPv4 packet and ask a builder for them.  ECN comes before DSCP because setting it
afterwards would clear the upper DSCP bits (C17). -/
def copyV4 (p : Bytes) : Outcome (List V4Op) := do
  let e ← V4.ecn p
  let c ← V4.dscp p
  let i ← V4.id p
  let o ← V4.offset p
  let t ← V4.ttl p
  let s ← V4.source p
  let d ← V4.destination p
  .ok [.ecn e, .dscp c, .id i, .offset o, .ttl t, .source s, .destination d]

/-- The same for a UDP datagram. -/
def copyUdp (d : Bytes) : Outcome (List UdpOp) := do
  let s ← Udp.source d
  let t ← Udp.destination d
  let q ← Udp.payload d
  .ok [.source s, .destination t, .payload q]

/-- The same for a TCP segment; the flags come last because they end the header for the builder (C27). -/
def copyTcp (d : Bytes) : Outcome (List TcpOp) := do
  let s ← Tcp.source d
  let t ← Tcp.destination d
  let n ← Tcp.sequence d
  let a ← Tcp.acknowledgment d
  let w ← Tcp.window d
  let u ← Tcp.pointer d
  let f ← Tcp.flags d
  let q ← Tcp.payload d
  .ok [.source s, .destination t, .sequence n, .acknowledgment a, .window w, .pointer u, .flags f, .payload q]

/-- The same for an echo message. -/
def copyEcho (d : Bytes) : Outcome (List EchoOp) := do
  let r ← Echo.isRequest d
  let i ← Echo.identifier d
  let n ← Echo.sequence d
  let q ← Echo.payload d
  .ok [if r then .request else .reply, .identifier i, .sequence n, .payload q]

/-- The same for a timestamp message. -/
def copyTimestamp (d : Bytes) : Outcome (List TimestampOp) := do
  let r ← Timestamp.isRequest d
  let i ← Timestamp.identifier d
  let n ← Timestamp.sequence d
  let o ← Timestamp.originate d
  let v ← Timestamp.receive d
  let t ← Timestamp.transmit d
  .ok [if r then .request else .reply, .identifier i, .sequence n, .originate o, .receive v, .transmit t]

/-- The same for an information message. -/
def copyInformation (d : Bytes) : Outcome (List InformationOp) := do
  let r ← Information.isRequest d
  let i ← Information.identifier d
  let n ← Information.sequence d
  .ok [if r then .request else .reply, .identifier i, .sequence n]

/-- The same for an Ethernet frame. -/
def copyEther (f : Bytes) : Outcome (List EtherOp) := do
  let d ← Ether.destination f
  let s ← Ether.source f
  let p ← Ether.protocol f
  let q ← Ether.payload f
  .ok [.destination d, .source s, .protocol p, .payload q]

/-- An IPv4 packet without options and flags, of exactly its total length, whose checksum is right. -/
structure PlainV4 (cfg : Cfg) (p : Bytes) : Prop where
  accepted : V4.new p = .ok p
  ihl : V4.ihl p = .ok 5
  total : field p 16 16 = p.length
  flags : field p 48 3 = 0
  valid : V4.isValid cfg p = .ok true

/-! ## Shapes -/

theorem v4_shape (p : Bytes) (h : 20 ≤ p.length) (h0 : p.getD 0 0#8 = 0x45#8) :
    ∃ (f : Ipv4Fields) (s d : Ipv4Addr) (total ck : U16) (rest : Bytes), f.src = s.octets ∧ f.dst = d.octets ∧
      p = ipv4Header f total ck ++ rest := by
  rcases p with _ | ⟨a0, _ | ⟨a1, _ | ⟨a2, _ | ⟨a3, _ | ⟨a4, _ | ⟨a5, _ | ⟨a6, _ | ⟨a7, _ | ⟨a8, _ | ⟨a9, _ | ⟨b0,
    _ | ⟨b1, _ | ⟨b2, _ | ⟨b3, _ | ⟨b4, _ | ⟨b5, _ | ⟨b6, _ | ⟨b7, _ | ⟨b8, _ | ⟨b9, r⟩⟩⟩⟩⟩⟩⟩⟩⟩⟩⟩⟩⟩⟩⟩⟩⟩⟩⟩⟩ <;>
    first | (simp only [List.length_cons, List.length_nil] at h; omega) | skip
  have h0 : a0 = 0x45#8 := h0
  subst h0
  refine ⟨⟨a1, fromBe16 a4 a5, fromBe16 a6 a7, a8, a9, [b2, b3, b4, b5], [b6, b7, b8, b9]⟩, ⟨b2, b3, b4, b5⟩,
    ⟨b6, b7, b8, b9⟩, fromBe16 a2 a3, fromBe16 b0 b1, r, rfl, rfl, ?_⟩
  simp only [ipv4Header, be16_fromBe16]
  rfl

theorem udp_shape (d : Bytes) (h : 8 ≤ d.length) :
    ∃ (s t l ck : U16) (q : Bytes), d = udpHeader s t l ck ++ q := by
  rcases d with _ | ⟨a0, _ | ⟨a1, _ | ⟨a2, _ | ⟨a3, _ | ⟨a4, _ | ⟨a5, _ | ⟨a6, _ | ⟨a7, r⟩⟩⟩⟩⟩⟩⟩⟩ <;>
    first | (simp only [List.length_cons, List.length_nil] at h; omega) | skip
  refine ⟨fromBe16 a0 a1, fromBe16 a2 a3, fromBe16 a4 a5, fromBe16 a6 a7, r, ?_⟩
  simp only [udpHeader, be16_fromBe16]
  rfl

theorem be32_fromBe32 (a b c d : U8) : be32 (fromBe32 a b c d) = [a, b, c, d] := by
  have := a.isLt; have := b.isLt; have := c.isLt; have := d.isLt
  simp only [be32, fromBe32_toNat]
  have h1 : BitVec.ofNat 8 ((((a.toNat * 256 + b.toNat) * 256 + c.toNat) * 256 + d.toNat) / 16777216) = a := by
    apply BitVec.eq_of_toNat_eq; simp only [BitVec.toNat_ofNat]; omega
  have h2 : BitVec.ofNat 8 ((((a.toNat * 256 + b.toNat) * 256 + c.toNat) * 256 + d.toNat) / 65536) = b := by
    apply BitVec.eq_of_toNat_eq; simp only [BitVec.toNat_ofNat]; omega
  have h3 : BitVec.ofNat 8 ((((a.toNat * 256 + b.toNat) * 256 + c.toNat) * 256 + d.toNat) / 256) = c := by
    apply BitVec.eq_of_toNat_eq; simp only [BitVec.toNat_ofNat]; omega
  have h4 : BitVec.ofNat 8 (((a.toNat * 256 + b.toNat) * 256 + c.toNat) * 256 + d.toNat) = d := by
    apply BitVec.eq_of_toNat_eq; simp only [BitVec.toNat_ofNat]; omega
  rw [h1, h2, h3, h4]

theorem tcp_shape (d : Bytes) (h : 20 ≤ d.length) :
    ∃ (f : TcpFields) (w ck : U16) (q : Bytes), d = tcpHeader f w ck ++ q := by
  rcases d with _ | ⟨a0, _ | ⟨a1, _ | ⟨a2, _ | ⟨a3, _ | ⟨a4, _ | ⟨a5, _ | ⟨a6, _ | ⟨a7, _ | ⟨a8, _ | ⟨a9, _ | ⟨b0,
    _ | ⟨b1, _ | ⟨b2, _ | ⟨b3, _ | ⟨b4, _ | ⟨b5, _ | ⟨b6, _ | ⟨b7, _ | ⟨b8, _ | ⟨b9, r⟩⟩⟩⟩⟩⟩⟩⟩⟩⟩⟩⟩⟩⟩⟩⟩⟩⟩⟩⟩ <;>
    first | (simp only [List.length_cons, List.length_nil] at h; omega) | skip
  refine ⟨⟨fromBe16 a0 a1, fromBe16 a2 a3, fromBe32 a4 a5 a6 a7, fromBe32 a8 a9 b0 b1, fromBe16 b4 b5,
    fromBe16 b8 b9⟩, fromBe16 b2 b3, fromBe16 b6 b7, r, ?_⟩
  simp only [tcpHeader, be16_fromBe16, be32_fromBe32]
  rfl

theorem echo_shape (d : Bytes) (h : 8 ≤ d.length) (h1 : d.getD 1 0#8 = 0#8) :
    ∃ (t : U8) (ck i n : U16) (q : Bytes), d = icmpEchoHeader t ck i n ++ q := by
  rcases d with _ | ⟨a0, _ | ⟨a1, _ | ⟨a2, _ | ⟨a3, _ | ⟨a4, _ | ⟨a5, _ | ⟨a6, _ | ⟨a7, r⟩⟩⟩⟩⟩⟩⟩⟩ <;>
    first | (simp only [List.length_cons, List.length_nil] at h; omega) | skip
  have h1 : a1 = 0#8 := h1
  subst h1
  refine ⟨a0, fromBe16 a2 a3, fromBe16 a4 a5, fromBe16 a6 a7, r, ?_⟩
  simp only [icmpEchoHeader, be16_fromBe16]
  rfl

theorem timestamp_shape (d : Bytes) (h : d.length = 20) (h1 : d.getD 1 0#8 = 0#8) :
    ∃ (t : U8) (ck i n : U16) (o v w : U32), d = icmpTimestamp t ck i n o v w := by
  rcases d with _ | ⟨a0, _ | ⟨a1, _ | ⟨a2, _ | ⟨a3, _ | ⟨a4, _ | ⟨a5, _ | ⟨a6, _ | ⟨a7, _ | ⟨a8, _ | ⟨a9, _ | ⟨b0,
    _ | ⟨b1, _ | ⟨b2, _ | ⟨b3, _ | ⟨b4, _ | ⟨b5, _ | ⟨b6, _ | ⟨b7, _ | ⟨b8, _ | ⟨b9, r⟩⟩⟩⟩⟩⟩⟩⟩⟩⟩⟩⟩⟩⟩⟩⟩⟩⟩⟩⟩ <;>
    first | (simp only [List.length_cons, List.length_nil] at h; omega) | skip
  have hr : r = [] := by
    rw [← List.length_eq_zero_iff]
    simp only [List.length_cons] at h
    omega
  subst hr
  have h1 : a1 = 0#8 := h1
  subst h1
  refine ⟨a0, fromBe16 a2 a3, fromBe16 a4 a5, fromBe16 a6 a7, fromBe32 a8 a9 b0 b1, fromBe32 b2 b3 b4 b5,
    fromBe32 b6 b7 b8 b9, ?_⟩
  simp only [icmpTimestamp, be16_fromBe16, be32_fromBe32]
  rfl

/-! ## Reading the fields back into a builder -/

theorem tos_again (t : U8) : (((0#8 &&& 0b111111#8) ||| (t &&& 0b11#8)) &&& 0b11#8) ||| ((t >>> 2) <<< 2) = t := by
  have h : ∀ n, n < 256 → (((0#8 &&& 0b111111#8) ||| (BitVec.ofNat 8 n &&& 0b11#8)) &&& 0b11#8) |||
      ((BitVec.ofNat 8 n >>> 2) <<< 2) = BitVec.ofNat 8 n := by decide +kernel
  have := h t.toNat t.isLt
  rwa [BitVec.ofNat_toNat, BitVec.setWidth_eq] at this

theorem tos_ranges (t : U8) : (t >>> 2).toNat ≤ 63 ∧ (t &&& 0b11#8).toNat ≤ 3 := by
  have h : ∀ n, n < 256 → ((BitVec.ofNat 8 n) >>> 2).toNat ≤ 63 ∧ ((BitVec.ofNat 8 n) &&& 0b11#8).toNat ≤ 3 := by
    decide +kernel
  have := h t.toNat t.isLt
  rwa [BitVec.ofNat_toNat, BitVec.setWidth_eq] at this

theorem offset_mask (w : U16) (h : w.toNat < 8192) : w &&& 0x1fff#16 = w := by
  apply BitVec.eq_of_toNat_eq
  rw [BitVec.toNat_and, show (0x1fff#16).toNat = 2 ^ 13 - 1 from rfl, Nat.and_two_pow_sub_one_eq_mod]
  omega

/-- An IPv4 packet without options, of exactly its total length, whose checksum is right. -/
structure WholeV4 (cfg : Cfg) (p : Bytes) : Prop where
  accepted : V4.new p = .ok p
  ihl : V4.ihl p = .ok 5
  total : field p 16 16 = p.length
  valid : V4.isValid cfg p = .ok true

/-- The calls `vops` ask for the header fields `f` of the packet `p`, which has `rest` behind the header. -/
structure Asks (cfg : Cfg) (p rest : Bytes) (f : Ipv4Fields) (ck : U16) (vops : List V4Op) (a : V4State) : Prop where
  ok : Ipv4Fields.ok f
  size : 20 + rest.length < 65536
  shape : p = ipv4Header f (BitVec.ofNat 16 (20 + rest.length)) ck ++ rest
  sane : ∀ op ∈ vops, op.Sane cfg
  run : runOps V4Op.abs vops .init = .ok a
  none : a.payload = none
  fields : { a.fields with protocol := f.protocol } = f
  sealed : sealV4 cfg f rest = .ok p

/-- The builder calls for given header fields. -/
def callsFor (f : Ipv4Fields) (s d : Ipv4Addr) : List V4Op :=
  [.ecn (f.tos &&& 0b11#8), .dscp (f.tos >>> 2), .id f.id, .offset f.fragment, .ttl f.ttl, .source s, .destination d]

/-- What an IPv4 packet without options looks like, and calls that ask for it. -/
theorem whole_copy (cfg : Cfg) {p : Bytes} (h : WholeV4 cfg p) :
    ∃ (f : Ipv4Fields) (s d : Ipv4Addr) (ck : U16) (rest : Bytes) (a : V4State),
      f.src = s.octets ∧ f.dst = d.octets ∧
      V4.payload p = .ok rest ∧ V4.protocol p = .ok (IpProtocol.ofWire f.protocol) ∧
      Asks cfg p rest f ck (callsFor f s d) a := by
  obtain ⟨hacc, hihl, htot, hval⟩ := h
  obtain ⟨-, ⟨⟨hlong, hver, -⟩, -⟩⟩ := V4.new_ok_iff.1 hacc
  have h0 : p.getD 0 0#8 = 0x45#8 := by
    have e := field_byte p 0
    have e4 := field_add p 0 4 4
    rw [V4.ihl_field (by omega)] at hihl
    injection hihl with hihl
    have hf5 : field p 4 4 = 5 := by
      have := congrArg BitVec.toNat hihl
      have hlt := field_lt p 4 4
      rw [BitVec.toNat_ofNat] at this
      have h5 : (5 : U8).toNat = 5 := rfl
      rw [h5] at this
      omega
    apply BitVec.eq_of_toNat_eq
    show _ = 69
    rw [← e]
    rw [show 8 * 0 = 0 from rfl, show 8 = 4 + 4 from rfl, e4, hver]
    rw [show 0 + 4 = 4 from rfl, hf5]
  obtain ⟨f, s, d, total, ck, rest, hs, hd, rfl⟩ := v4_shape p hlong h0
  have hok : Ipv4Fields.ok f := ⟨⟨s, hs⟩, ⟨d, hd⟩⟩
  obtain ⟨-, -, hdscp, hecn, -, hid, httl, hproto, hck, hsrc, hdst, hhead, hfrag⟩ := v4_view f s d hs hd total ck rest
  have hln : (ipv4Header f total ck ++ rest).length = 20 + rest.length := by simp [hok.length]
  rw [v4_total, hln] at htot
  have ht := total.isLt
  have htotal : total = BitVec.ofNat 16 (20 + rest.length) := by rw [← htot]; simp
  have hpay : V4.payload (ipv4Header f total ck ++ rest) = .ok rest := v4_payload_view hok total ck rest htot
  have hseal : V4.checksumOf cfg (ipv4Header f total 0#16) = .ok ck := by
    unfold V4.isValid at hval
    rw [hhead, hck] at hval
    simp only [Outcome.ok_bind] at hval
    rw [v4_checksum_skip cfg hok] at hval
    obtain ⟨c, hc, hval⟩ := bind_ok_inv hval
    injection hval with hval
    rw [hc, eq_of_beq hval]
  refine ⟨f, s, d, ck, rest, ⟨⟨f.tos, f.id, f.fragment, f.ttl, 0, f.src, f.dst⟩, none⟩, hs, hd, hpay, hproto,
    hok, by omega, by rw [← htotal], v4_sane_of_none rfl, ?_, rfl, rfl, ?_⟩
  · obtain ⟨r1, r2⟩ := tos_ranges f.tos
    unfold callsFor
    simp only [runOps, V4Op.abs, Outcome.ok_bind]
    rw [if_neg (by omega), Outcome.ok_bind, if_neg (by omega), Outcome.ok_bind]
    simp only [V4Op.step, V4State.init]
    rw [show (0 : U8) = 0#8 from rfl, tos_again, hs, hd]
  · unfold sealV4
    rw [← htotal, hseal]
    rfl

/-- What the copying program makes of a plain IPv4 packet. -/
theorem plain_copy (cfg : Cfg) {p : Bytes} (h : PlainV4 cfg p) :
    ∃ (f : Ipv4Fields) (ck : U16) (rest : Bytes) (vops : List V4Op) (a : V4State),
      V4.payload p = .ok rest ∧ V4.protocol p = .ok (IpProtocol.ofWire f.protocol) ∧ copyV4 p = .ok vops ∧
      Asks cfg p rest f ck vops a := by
  obtain ⟨hacc, hihl, htot, hfl, hval⟩ := h
  obtain ⟨f, s, d, ck, rest, a, hs, hd, hpay, hproto, ha⟩ := whole_copy cfg ⟨hacc, hihl, htot, hval⟩
  refine ⟨f, ck, rest, _, a, hpay, hproto, ?_, ha⟩
  have hsh := ha.shape
  generalize BitVec.ofNat 16 (20 + rest.length) = total at hsh
  obtain ⟨-, hok⟩ := V4.new_ok_iff.1 hacc
  have hlong := hok.long
  clear ha hpay hproto
  subst hsh
  obtain ⟨-, -, hdscp, hecn, -, hid, httl, -, hck, hsrc, hdst, hhead, hfrag⟩ := v4_view f s d hs hd total ck rest
  have hfr : f.fragment.toNat < 8192 := by
    have e1 := readU16At_field (b := ipv4Header f total ck ++ rest) (k := 6) (by omega)
    rw [hfrag] at e1
    injection e1 with e1
    have e2 := field_add (ipv4Header f total ck ++ rest) 48 3 13
    rw [hfl] at e2
    have hlt := field_lt (ipv4Header f total ck ++ rest) 51 13
    have e3 := congrArg BitVec.toNat e1
    rw [BitVec.toNat_ofNat] at e3
    rw [show 8 * 6 = 48 from rfl] at e3
    rw [show 3 + 13 = 16 from rfl, show 48 + 3 = 51 from rfl] at e2
    rw [e2] at e3
    omega
  have hoff : V4.offset (ipv4Header f total ck ++ rest) = .ok f.fragment := by
    unfold V4.offset
    rw [hfrag]
    simp only [Outcome.ok_bind]
    rw [offset_mask _ hfr]
  unfold copyV4 callsFor
  simp only [hecn, hdscp, hid, hoff, httl, hsrc, hdst, Outcome.ok_bind]

/-! ## The programs -/

/-- Rebuild an IPv4 packet with a UDP datagram in it from what the accessors return. -/
def rebuildUdp (cfg : Cfg) (p : Bytes) : Outcome Bytes := do
  let d ← V4.payload p
  let v ← copyV4 p
  let u ← copyUdp d
  ipv4Program cfg Dynamic.new v (.udp u)

/-- The same with a TCP segment. -/
def rebuildTcp (cfg : Cfg) (p : Bytes) : Outcome Bytes := do
  let d ← V4.payload p
  let v ← copyV4 p
  let t ← copyTcp d
  ipv4Program cfg Dynamic.new v (.tcp t)

/-- The same with an echo message. -/
def rebuildEcho (cfg : Cfg) (p : Bytes) : Outcome Bytes := do
  let d ← V4.payload p
  let v ← copyV4 p
  let t ← copyEcho d
  ipv4Program cfg Dynamic.new v (.icmp (.echo t))

/-- The same with a timestamp message. -/
def rebuildTimestamp (cfg : Cfg) (p : Bytes) : Outcome Bytes := do
  let d ← V4.payload p
  let v ← copyV4 p
  let t ← copyTimestamp d
  ipv4Program cfg Dynamic.new v (.icmp (.timestamp t))

/-- The same with an information message. -/
def rebuildInformation (cfg : Cfg) (p : Bytes) : Outcome Bytes := do
  let d ← V4.payload p
  let v ← copyV4 p
  let t ← copyInformation d
  ipv4Program cfg Dynamic.new v (.icmp (.information t))

/-- Rebuild an Ethernet frame. -/
def rebuildEther (cfg : Cfg) (f : Bytes) : Outcome Bytes := do
  let ops ← copyEther f
  etherProgram cfg Dynamic.new ops

theorem ofWire_protocol {w : U8} {x : IpProtocol} {n : U8} (h : IpProtocol.ofWire w = x) (hx : x.toWire = n) :
    w = n := by
  rw [← C40_ip_protocol.wire w, h, hx]

theorem udp_inner_abs (cfg : Cfg) {a : V4State} {f : Ipv4Fields} (ops : List UdpOp) (hnone : a.payload = none)
    (hf : { a.fields with protocol := 17#8 } = f) :
    (Inner.udp ops).abs cfg cfg.isizeMax 0 a = (runOps UdpOp.abs ops .init >>= fun u =>
      u.seal cfg (ipv4Header f 0#16 0#16) >>= fun d => sealV4 cfg f d) := by
  subst hf
  show (if a.payload.isSome then _ else _) = _
  rw [hnone, if_neg (by simp), need_dynamic (by omega), Outcome.ok_bind]

theorem tcp_inner_abs (cfg : Cfg) {a : V4State} {f : Ipv4Fields} (ops : List TcpOp) (hnone : a.payload = none)
    (hf : { a.fields with protocol := 6#8 } = f) :
    (Inner.tcp ops).abs cfg cfg.isizeMax 0 a = (runOps TcpOp.abs ops .init >>= fun u =>
      u.seal cfg (ipv4Header f 0#16 0#16) >>= fun d => sealV4 cfg f d) := by
  subst hf
  show (if a.payload.isSome then _ else _) = _
  rw [hnone, if_neg (by simp), need_dynamic (by omega), Outcome.ok_bind]

theorem icmp_inner_abs (cfg : Cfg) {a : V4State} {f : Ipv4Fields} (inner : IcmpInner) (hnone : a.payload = none)
    (hf : { a.fields with protocol := 1#8 } = f) :
    (Inner.icmp inner).abs cfg cfg.isizeMax 0 a = (inner.abs cfg cfg.isizeMax 20 >>= fun d => sealV4 cfg f d) := by
  subst hf
  show (if a.payload.isSome then _ else _) = _
  rw [hnone, if_neg (by simp)]

theorem and_of {a b : Prop} (hb : b) (h : b → a) : a ∧ b := ⟨h hb, hb⟩

theorem udp_rebuilt (cfg : Cfg) {p d : Bytes} {f : Ipv4Fields} {ck : U16} {vops : List V4Op} {a : V4State}
    (h : Asks cfg p d f ck vops a) (hpr : f.protocol = 17#8)
    (hnew : Udp.new d = .ok d) (hlen : field d 32 16 = d.length)
    (hvalid : Udp.isValid cfg (.v4 p) d = .ok true) :
    ∃ ops, copyUdp d = .ok ops ∧ ipv4Program cfg Dynamic.new vops (.udp ops) = .ok p ∧ (Inner.udp ops).Sane cfg := by
  obtain ⟨hok, hsize, hshape, hsane, hrun, hnone, hfields, hseal⟩ := h
  rw [hpr] at hfields
  obtain ⟨-, h8, -⟩ := Udp.new_ok_iff.1 hnew
  obtain ⟨s, t, l, uck, q, rfl⟩ := udp_shape d h8
  have hl : (udpHeader s t l uck ++ q).length = 8 + q.length := by simp [udpHeader, be16]; omega
  obtain ⟨vs, vt, vl, vck, -, vp⟩ := udp_view s t l uck q
  have hl2 : l.toNat = 8 + q.length := by
    rw [← hl, ← hlen]
    have := Udp.length_field (b := udpHeader s t l uck ++ q) (by omega)
    rw [vl] at this
    injection this with this
    have h2 := congrArg BitVec.toNat this
    rwa [ofNat_field_toNat _ 32 16] at h2
  have hl3 : l = BitVec.ofNat 16 (8 + q.length) := by rw [← hl2]; simp
  refine ⟨_, (by
    unfold copyUdp
    rw [vs, vt, vp hl2]
    simp only [Outcome.ok_bind]
    rfl), ?_⟩
  refine and_of (by
    intro v hv
    have : q = v := by simpa [Inner.payloads, UdpOp.payload?] using hv
    subst this
    (have := cfg.width; omega)) (fun hsn => ?_)
  rw [ipv4Program_dynamic cfg _ _ hsane hsn]
  unfold ipv4Abs
  rw [need_dynamic (by omega), Outcome.ok_bind, hrun, Outcome.ok_bind]
  have hur : runOps UdpOp.abs [.source s, .destination t, .payload q] .init = .ok ⟨s, t, some q⟩ :=
    udp_run [.source s, .destination t, .payload q] (Nat.le_refl 1)
  rw [udp_inner_abs cfg _ hnone hfields, hur, Outcome.ok_bind]
  have hck : Udp.checksumOf cfg (.v4 (ipv4Header f 0#16 0#16)) (udpHeader s t l 0#16 ++ q) = .ok uck := by
    unfold Udp.isValid at hvalid
    rw [vck, udp_checksum_skip cfg p (by rw [hshape]; simp [hok.length]), hshape, udp_checksum_v4 cfg hok] at hvalid
    have := udp_checksum_v4 cfg hok 0#16 0#16 [] (udpHeader s t l 0#16 ++ q)
    rw [List.append_nil] at this
    rw [this]
    simp only [Outcome.ok_bind] at hvalid
    injection hvalid with hvalid
    rw [eq_of_beq hvalid]
  have hud : UdpState.seal cfg (ipv4Header f 0#16 0#16) ⟨s, t, some q⟩ = .ok (udpHeader s t l uck ++ q) := by
    unfold UdpState.seal
    show (Udp.checksumOf cfg (.v4 (ipv4Header f 0#16 0#16)) (udpHeader s t (BitVec.ofNat 16 (8 + q.length)) 0#16 ++ q) >>= _) = _
    rw [← hl3, hck]
    show Outcome.ok (udpHeader s t (BitVec.ofNat 16 (8 + q.length)) uck ++ q) = _
    rw [← hl3]
  rw [hud, Outcome.ok_bind, hseal]

/-- C95: every plain IPv4 packet with a valid UDP datagram is rebuilt byte for byte.
Missing: packets with options, with a flag set (`C95_dont_fragment_refuted`), or with bytes that no accessor shows. -/
theorem C95_udp_rebuild_partial (cfg : Cfg) {p d : Bytes} (hp : PlainV4 cfg p) (hd : V4.payload p = .ok d)
    (hproto : V4.protocol p = .ok .udp) (hnew : Udp.new d = .ok d) (hlen : field d 32 16 = d.length)
    (hvalid : Udp.isValid cfg (.v4 p) d = .ok true) :
    rebuildUdp cfg p = .ok p := by
  obtain ⟨f, ck, rest, vops, a, hpay, hpr, hcopy, ha⟩ := plain_copy cfg hp
  rw [hd] at hpay; injection hpay with hpay; subst hpay
  rw [hproto] at hpr; injection hpr with hpr
  obtain ⟨ops, e1, e2, -⟩ := udp_rebuilt cfg ha (ofWire_protocol (n := 17#8) hpr.symm rfl) hnew hlen hvalid
  unfold rebuildUdp
  rw [hd, hcopy]
  simp only [Outcome.ok_bind]
  rw [e1, Outcome.ok_bind, e2]

theorem word_again (w : U16) (h5 : w.toNat / 4096 = 5) (hr : w.toNat / 512 % 8 = 0) :
    0x5000#16 ||| (w &&& 0b1_1111_1111#16) = w := by
  have h : ∀ n, n < 512 → 0x5000#16 ||| (BitVec.ofNat 16 (0x5000 + n) &&& 0b1_1111_1111#16) =
      BitVec.ofNat 16 (0x5000 + n) := by decide +kernel
  have hn : w = BitVec.ofNat 16 (0x5000 + (w.toNat - 0x5000)) := by
    apply BitVec.eq_of_toNat_eq
    have := w.isLt
    rw [BitVec.toNat_ofNat]
    omega
  have := h (w.toNat - 0x5000) (by have := w.isLt; omega)
  rwa [← hn] at this

theorem tcp_rebuilt (cfg : Cfg) {p d : Bytes} {f : Ipv4Fields} {ck : U16} {vops : List V4Op} {a : V4State}
    (h : Asks cfg p d f ck vops a) (hpr : f.protocol = 6#8)
    (hnew : Tcp.new d = .ok d) (hoff : Tcp.offset d = .ok 5)
    (hres : field d 100 3 = 0) (hvalid : Tcp.isValid cfg (.v4 p) d = .ok true) :
    ∃ ops, copyTcp d = .ok ops ∧ ipv4Program cfg Dynamic.new vops (.tcp ops) = .ok p ∧ (Inner.tcp ops).Sane cfg := by
  obtain ⟨hok, hsize, hshape, hsane, hrun, hnone, hfields, hseal⟩ := h
  rw [hpr] at hfields
  obtain ⟨-, h20, -⟩ := Tcp.new_ok_iff.1 hnew
  obtain ⟨g, w, tck, q, rfl⟩ := tcp_shape d h20
  have hl : (tcpHeader g w tck ++ q).length = 20 + q.length := by simp [tcpHeader_length]
  have h5 : w.toNat / 4096 = 5 := by
    rw [tcp_offset_view] at hoff
    injection hoff with hoff
    have := congrArg BitVec.toNat hoff
    have hw := w.isLt
    rw [BitVec.toNat_ofNat] at this
    have h5 : (5 : U8).toNat = 5 := rfl
    rw [h5] at this
    omega
  have hr : w.toNat / 512 % 8 = 0 := by
    have e0 : readU16At (tcpHeader g w tck ++ q) 12 = .ok w := readU16At_be16 (by omega) rfl
    have e1 := readU16At_field (b := tcpHeader g w tck ++ q) (k := 12) (by omega)
    rw [e0] at e1
    injection e1 with e1
    have e2 := field_add (tcpHeader g w tck ++ q) 96 4 12
    have e3 := field_add (tcpHeader g w tck ++ q) 100 3 9
    have l1 := field_lt (tcpHeader g w tck ++ q) 96 4
    have l2 := field_lt (tcpHeader g w tck ++ q) 103 9
    have e4 := congrArg BitVec.toNat e1
    rw [BitVec.toNat_ofNat, show 8 * 12 = 96 from rfl] at e4
    rw [show 4 + 12 = 16 from rfl, show 96 + 4 = 100 from rfl] at e2
    rw [show 3 + 9 = 12 from rfl, show 100 + 3 = 103 from rfl, hres] at e3
    rw [e2, e3] at e4
    omega
  have hword := word_again w h5 hr
  have hfl : ∃ fl : TcpFlags, fl.bits = w &&& 0b1_1111_1111#16 := by
    refine ⟨⟨w &&& 0b1_1111_1111#16, ?_⟩, rfl⟩
    rw [BitVec.and_assoc, show (0b1_1111_1111#16 &&& ~~~0b1_1111_1111#16) = 0#16 from rfl, BitVec.and_zero]
  obtain ⟨fl, hfl⟩ := hfl
  rw [← hfl] at hword
  have vf := tcp_flags_view g w tck q fl hfl.symm
  have vq : Tcp.payload (tcpHeader g w tck ++ q) = .ok q := by
    rw [← hword]
    exact (tcp_final_view g fl tck q).2.2.2.1
  obtain ⟨v1, v2, v3, v4, v5, v6, vck, -⟩ := tcp_view g w tck q
  refine ⟨_, (by
    unfold copyTcp
    rw [v1, v2, v3, v4, v5, v6, vf, vq]
    simp only [Outcome.ok_bind]
    rfl), ?_⟩
  refine and_of (by
    intro v hv
    have : q = v := by simpa [Inner.payloads, TcpOp.payload?] using hv
    subst this
    (have := cfg.width; omega)) (fun hsn => ?_)
  rw [ipv4Program_dynamic cfg _ _ hsane hsn]
  unfold ipv4Abs
  rw [need_dynamic (by omega), Outcome.ok_bind, hrun, Outcome.ok_bind]
  have hur : runOps TcpOp.abs [.source g.sport, .destination g.dport, .sequence g.seq, .acknowledgment g.ack,
      .window g.window, .pointer g.pointer, .flags fl, .payload q] .init = .ok ⟨g, some fl, some q⟩ :=
    tcp_run [.source g.sport, .destination g.dport, .sequence g.seq, .acknowledgment g.ack,
      .window g.window, .pointer g.pointer, .flags fl, .payload q]
      (by intro op hop; exact ⟨q, by simpa using hop⟩) (Nat.le_refl 1)
  rw [tcp_inner_abs cfg _ hnone hfields, hur, Outcome.ok_bind]
  have hck : Tcp.checksumOf cfg (.v4 (ipv4Header f 0#16 0#16)) (tcpHeader g w 0#16 ++ q) = .ok tck := by
    have hl0 : (tcpHeader g w 0#16 ++ q).length = 20 + q.length := by simp [tcpHeader_length]
    unfold Tcp.isValid at hvalid
    rw [vck, tcp_checksum_skip cfg p (by rw [hshape]; simp [hok.length]) _ _ _ _ (by omega), hshape,
      tcp_checksum_v4 cfg hok _ _ _ _ (by omega)] at hvalid
    have := tcp_checksum_v4 cfg hok 0#16 0#16 [] (tcpHeader g w 0#16 ++ q) (by omega)
    rw [List.append_nil] at this
    rw [this]
    split at hvalid
    · cases hvalid
    · rename_i hc
      rw [if_neg hc]
      rw [Outcome.ok_bind, Outcome.ok_bind] at hvalid
      rw [beq_ok_true.1 hvalid]
  have hud : TcpState.seal cfg (ipv4Header f 0#16 0#16) ⟨g, some fl, some q⟩ = .ok (tcpHeader g w tck ++ q) := by
    unfold TcpState.seal
    show (Tcp.checksumOf cfg (.v4 (ipv4Header f 0#16 0#16)) (tcpHeader g (0x5000#16 ||| fl.bits) 0#16 ++ q) >>= _) = _
    rw [hword, hck]
    show Outcome.ok (tcpHeader g (0x5000#16 ||| fl.bits) tck ++ q) = _
    rw [hword]
  rw [hud, Outcome.ok_bind, hseal]

/-- C95: every plain IPv4 packet with a valid TCP segment without options is rebuilt byte for byte.
Missing: packets with options, with a flag set (`C95_dont_fragment_refuted`), or with bytes that no accessor shows. -/
theorem C95_tcp_rebuild_partial (cfg : Cfg) {p d : Bytes} (hp : PlainV4 cfg p) (hd : V4.payload p = .ok d)
    (hproto : V4.protocol p = .ok .tcp) (hnew : Tcp.new d = .ok d) (hoff : Tcp.offset d = .ok 5)
    (hres : field d 100 3 = 0) (hvalid : Tcp.isValid cfg (.v4 p) d = .ok true) :
    rebuildTcp cfg p = .ok p := by
  obtain ⟨f, ck, rest, vops, a, hpay, hpr, hcopy, ha⟩ := plain_copy cfg hp
  rw [hd] at hpay; injection hpay with hpay; subst hpay
  rw [hproto] at hpr; injection hpr with hpr
  obtain ⟨ops, e1, e2, -⟩ := tcp_rebuilt cfg ha (ofWire_protocol (n := 6#8) hpr.symm rfl) hnew hoff hres hvalid
  unfold rebuildTcp
  rw [hd, hcopy]
  simp only [Outcome.ok_bind]
  rw [e1, Outcome.ok_bind, e2]

theorem icmp_again (cfg : Cfg) {m : Bytes} {ck : U16} (hm : 4 ≤ m.length)
    (hv : Icmp.isValid cfg (put m 2 (be16 ck)) = .ok true) : Icmp.checksumOf cfg m = .ok ck := by
  unfold Icmp.isValid Icmp.checksum at hv
  rw [icmp_checksum_skip cfg m hm, readU16At_put (by omega)] at hv
  obtain ⟨c, hc, hv⟩ := bind_ok_inv hv
  rw [Outcome.ok_bind] at hv
  injection hv with hv
  rw [hc, eq_of_beq hv]

theorem getD_of_field8 {d : Bytes} {k v : Nat} (h : field d (8 * k) 8 = v) (hv : v < 256) :
    d.getD k 0#8 = BitVec.ofNat 8 v := by
  apply BitVec.eq_of_toNat_eq
  rw [← field_byte, h, BitVec.toNat_ofNat]
  omega

theorem code_zero {d : Bytes} (h : 2 ≤ d.length) (hc : Icmp.code d = .ok 0) : d.getD 1 0#8 = 0#8 := by
  unfold Icmp.code at hc
  rw [idx_ok (by omega)] at hc
  injection hc

theorem echo_message (cfg : Cfg) {d : Bytes} (hlong : d.length ≤ cfg.usizeMod / 4)
    (hnew : Echo.new d = .ok d) (hcode : Icmp.code d = .ok 0)
    (hvalid : Icmp.isValid cfg d = .ok true) :
    ∃ ops, copyEcho d = .ok ops ∧ (Inner.icmp (.echo ops)).Sane cfg ∧
      ∀ m, m ≤ 100 → (IcmpInner.echo ops).abs cfg cfg.isizeMax m = .ok d := by
  obtain ⟨h8, hkind⟩ := echo_ok hnew
  obtain ⟨t, ick, i, n, q, rfl⟩ := echo_shape d h8 (code_zero (by omega) hcode)
  have hl : (icmpEchoHeader t ick i n ++ q).length = 8 + q.length := by simp [icmpEchoHeader, be16]; omega
  obtain ⟨-, -, -, -, vi, vn, vq⟩ := echoHeader_view t ick i n q
  have hk : t = 8#8 ∨ t = 0#8 := by
    rcases hkind with h | h
    · exact .inl (getD_of_field8 (k := 0) h (by omega))
    · exact .inr (getD_of_field8 (k := 0) h (by omega))
  have hck : Icmp.checksumOf cfg (icmpEchoHeader t 0#16 i n ++ q) = .ok ick :=
    icmp_again cfg (by simp [icmpEchoHeader, be16]) (show Icmp.isValid cfg (icmpEchoHeader t ick i n ++ q) = _ from hvalid)
  have vr : Echo.isRequest (icmpEchoHeader t ick i n ++ q) = .ok (IcmpKind.ofWire t == .echoRequest) := rfl
  refine ⟨_, (by
    unfold copyEcho
    rw [vr, vi, vn, vq]
    simp only [Outcome.ok_bind]
    rfl), ?_⟩
  have hops : ∀ op, op = EchoOp.request ∨ op = EchoOp.reply →
      (Inner.icmp (.echo [op, .identifier i, .sequence n, .payload q])).Sane cfg := by
    intro op hop v hv
    have : q = v := by rcases hop with rfl | rfl <;> simpa [Inner.payloads, EchoOp.payload?] using hv
    subst this
    omega
  refine ⟨(hops _ (by split <;> simp)), fun m hm => ?_⟩
  have hin : ∀ op k, EchoOp.kind? op = some k → k.toWire = t → op = .request ∨ op = .reply →
      (IcmpInner.echo [op, .identifier i, .sequence n, .payload q]).abs cfg cfg.isizeMax m
        = .ok (icmpEchoHeader t ick i n ++ q) := by
    intro op k hk1 hk2 hop
    have hrun : runOps EchoOp.abs [op, .identifier i, .sequence n, .payload q] .init = .ok ⟨some t, i, n, some q⟩ := by
      rw [echo_run [op, .identifier i, .sequence n, .payload q] (by rcases hop with rfl | rfl <;> exact Nat.le_refl 1),
        ← hk2]
      rcases hop with rfl | rfl <;> (injection hk1 with hk1; subst hk1; rfl)
    unfold IcmpInner.abs
    show (need cfg.isizeMax (m + 8) >>= _) = _
    rw [need_dynamic (by omega), Outcome.ok_bind, hrun, Outcome.ok_bind]
    show (Icmp.checksumOf cfg (icmpEchoHeader t 0#16 i n ++ q) >>= _) = _
    rw [hck]
    rfl
  rcases hk with rfl | rfl
  · rw [if_pos (by decide), hin .request _ rfl rfl (.inl rfl)]
  · rw [if_neg (by decide), hin .reply _ rfl rfl (.inr rfl)]

theorem echo_rebuilt (cfg : Cfg) {p d : Bytes} {f : Ipv4Fields} {ck : U16} {vops : List V4Op} {a : V4State}
    (h : Asks cfg p d f ck vops a) (hpr : f.protocol = 1#8)
    (hnew : Echo.new d = .ok d) (hcode : Icmp.code d = .ok 0)
    (hvalid : Icmp.isValid cfg d = .ok true) :
    ∃ ops, copyEcho d = .ok ops ∧ ipv4Program cfg Dynamic.new vops (.icmp (.echo ops)) = .ok p ∧ (Inner.icmp (.echo ops)).Sane cfg := by
  obtain ⟨hok, hsize, hshape, hsane, hrun, hnone, hfields, hseal⟩ := h
  rw [hpr] at hfields
  obtain ⟨ops, e1, e2, e3⟩ := echo_message cfg (Nat.le_of_lt (by (have := cfg.width; omega))) hnew hcode hvalid
  refine ⟨ops, e1, ?_, e2⟩
  rw [ipv4Program_dynamic cfg _ _ hsane e2]
  unfold ipv4Abs
  rw [need_dynamic (by omega), Outcome.ok_bind, hrun, Outcome.ok_bind, icmp_inner_abs cfg _ hnone hfields,
    e3 20 (by omega), Outcome.ok_bind, hseal]

/-- C95: every plain IPv4 packet with a valid echo message is rebuilt byte for byte.
Missing: packets with options, with a flag set (`C95_dont_fragment_refuted`), or with bytes that no accessor shows. -/
theorem C95_echo_rebuild_partial (cfg : Cfg) {p d : Bytes} (hp : PlainV4 cfg p) (hd : V4.payload p = .ok d)
    (hproto : V4.protocol p = .ok .icmp) (hnew : Echo.new d = .ok d) (hcode : Icmp.code d = .ok 0)
    (hvalid : Icmp.isValid cfg d = .ok true) :
    rebuildEcho cfg p = .ok p := by
  obtain ⟨f, ck, rest, vops, a, hpay, hpr, hcopy, ha⟩ := plain_copy cfg hp
  rw [hd] at hpay; injection hpay with hpay; subst hpay
  rw [hproto] at hpr; injection hpr with hpr
  obtain ⟨ops, e1, e2, -⟩ := echo_rebuilt cfg ha (ofWire_protocol (n := 1#8) hpr.symm rfl) hnew hcode hvalid
  unfold rebuildEcho
  rw [hd, hcopy]
  simp only [Outcome.ok_bind]
  rw [e1, Outcome.ok_bind, e2]

theorem timestamp_message (cfg : Cfg) {d : Bytes} (hlong : d.length ≤ cfg.usizeMod / 4)
    (hnew : Timestamp.new d = .ok d) (hlen : d.length = 20)
    (hcode : Icmp.code d = .ok 0) (hvalid : Icmp.isValid cfg d = .ok true) :
    ∃ ops, copyTimestamp d = .ok ops ∧ (Inner.icmp (.timestamp ops)).Sane cfg ∧
      ∀ m, m ≤ 100 → (IcmpInner.timestamp ops).abs cfg cfg.isizeMax m = .ok d := by
  obtain ⟨h20, hkind⟩ := timestamp_ok hnew
  obtain ⟨t, ick, i, n, o, r, w, rfl⟩ := timestamp_shape d hlen (code_zero (by omega) hcode)
  obtain ⟨-, -, -, -, vi, vn, vo, vr, vt⟩ := timestamp_view t ick i n o r w
  have hk : t = 13#8 ∨ t = 14#8 := by
    rcases hkind with h | h
    · exact .inl (getD_of_field8 (k := 0) h (by omega))
    · exact .inr (getD_of_field8 (k := 0) h (by omega))
  have hck : Icmp.checksumOf cfg (icmpTimestamp t 0#16 i n o r w) = .ok ick :=
    icmp_again cfg (by simp [icmpTimestamp, be16, be32]) (show Icmp.isValid cfg (icmpTimestamp t ick i n o r w) = _ from hvalid)
  have vq : Timestamp.isRequest (icmpTimestamp t ick i n o r w) = .ok (IcmpKind.ofWire t == .timestampRequest) := rfl
  refine ⟨_, (by
    unfold copyTimestamp
    rw [vq, vi, vn, vo, vr, vt]
    simp only [Outcome.ok_bind]
    rfl), ?_⟩
  refine ⟨(by intro v hv; cases hv), fun m hm => ?_⟩
  have hin : ∀ op k, TimestampOp.kind? op = some k → k.toWire = t → op = .request ∨ op = .reply →
      (IcmpInner.timestamp [op, .identifier i, .sequence n, .originate o, .receive r, .transmit w]).abs cfg cfg.isizeMax m
        = .ok (icmpTimestamp t ick i n o r w) := by
    intro op k hk1 hk2 hop
    unfold IcmpInner.abs
    show (need cfg.isizeMax (m + 20) >>= _) = _
    have hrun : runOps TimestampOp.abs [op, .identifier i, .sequence n, .originate o, .receive r, .transmit w] .init
        = .ok ⟨some t, i, n, o, r, w⟩ := by
      rw [timestamp_run [op, .identifier i, .sequence n, .originate o, .receive r, .transmit w], ← hk2]
      rcases hop with rfl | rfl <;> (injection hk1 with hk1; subst hk1; rfl)
    rw [need_dynamic (by omega), Outcome.ok_bind, hrun, Outcome.ok_bind]
    show (Icmp.checksumOf cfg (icmpTimestamp t 0#16 i n o r w) >>= _) = _
    rw [hck]
    rfl
  rcases hk with rfl | rfl
  · rw [if_pos (by decide), hin .request _ rfl rfl (.inl rfl)]
  · rw [if_neg (by decide), hin .reply _ rfl rfl (.inr rfl)]

theorem timestamp_rebuilt (cfg : Cfg) {p d : Bytes} {f : Ipv4Fields} {ck : U16} {vops : List V4Op} {a : V4State}
    (h : Asks cfg p d f ck vops a) (hpr : f.protocol = 1#8)
    (hnew : Timestamp.new d = .ok d) (hlen : d.length = 20)
    (hcode : Icmp.code d = .ok 0) (hvalid : Icmp.isValid cfg d = .ok true) :
    ∃ ops, copyTimestamp d = .ok ops ∧ ipv4Program cfg Dynamic.new vops (.icmp (.timestamp ops)) = .ok p ∧ (Inner.icmp (.timestamp ops)).Sane cfg := by
  obtain ⟨hok, hsize, hshape, hsane, hrun, hnone, hfields, hseal⟩ := h
  rw [hpr] at hfields
  obtain ⟨ops, e1, e2, e3⟩ := timestamp_message cfg (Nat.le_of_lt (by (have := cfg.width; omega))) hnew hlen hcode hvalid
  refine ⟨ops, e1, ?_, e2⟩
  rw [ipv4Program_dynamic cfg _ _ hsane e2]
  unfold ipv4Abs
  rw [need_dynamic (by omega), Outcome.ok_bind, hrun, Outcome.ok_bind, icmp_inner_abs cfg _ hnone hfields,
    e3 20 (by omega), Outcome.ok_bind, hseal]

/-- C95: every plain IPv4 packet with a valid timestamp message is rebuilt byte for byte.
Missing: packets with options, with a flag set (`C95_dont_fragment_refuted`), or with bytes that no accessor shows. -/
theorem C95_timestamp_rebuild_partial (cfg : Cfg) {p d : Bytes} (hp : PlainV4 cfg p) (hd : V4.payload p = .ok d)
    (hproto : V4.protocol p = .ok .icmp) (hnew : Timestamp.new d = .ok d) (hlen : d.length = 20)
    (hcode : Icmp.code d = .ok 0) (hvalid : Icmp.isValid cfg d = .ok true) :
    rebuildTimestamp cfg p = .ok p := by
  obtain ⟨f, ck, rest, vops, a, hpay, hpr, hcopy, ha⟩ := plain_copy cfg hp
  rw [hd] at hpay; injection hpay with hpay; subst hpay
  rw [hproto] at hpr; injection hpr with hpr
  obtain ⟨ops, e1, e2, -⟩ := timestamp_rebuilt cfg ha (ofWire_protocol (n := 1#8) hpr.symm rfl) hnew hlen hcode hvalid
  unfold rebuildTimestamp
  rw [hd, hcopy]
  simp only [Outcome.ok_bind]
  rw [e1, Outcome.ok_bind, e2]

theorem information_message (cfg : Cfg) {d : Bytes} (hlong : d.length ≤ cfg.usizeMod / 4)
    (hnew : Information.new d = .ok d) (hlen : d.length = 8)
    (hcode : Icmp.code d = .ok 0) (hvalid : Icmp.isValid cfg d = .ok true) :
    ∃ ops, copyInformation d = .ok ops ∧ (Inner.icmp (.information ops)).Sane cfg ∧
      ∀ m, m ≤ 100 → (IcmpInner.information ops).abs cfg cfg.isizeMax m = .ok d := by
  obtain ⟨h8, hkind⟩ := information_ok hnew
  obtain ⟨t, ick, i, n, q, rfl⟩ := echo_shape d h8 (code_zero (by omega) hcode)
  have hq : q = [] := by
    rw [← List.length_eq_zero_iff]
    simp [icmpEchoHeader, be16] at hlen
    simpa using hlen
  subst hq
  rw [List.append_nil] at *
  have e := echoHeader_view t ick i n []
  rw [List.append_nil] at e
  obtain ⟨-, -, -, -, vi, vn, -⟩ := e
  have vi : Information.identifier (icmpEchoHeader t ick i n) = .ok i := vi
  have vn : Information.sequence (icmpEchoHeader t ick i n) = .ok n := vn
  have hk : t = 15#8 ∨ t = 16#8 := by
    rcases hkind with h | h
    · exact .inl (getD_of_field8 (k := 0) h (by omega))
    · exact .inr (getD_of_field8 (k := 0) h (by omega))
  have hck : Icmp.checksumOf cfg (icmpEchoHeader t 0#16 i n) = .ok ick :=
    icmp_again cfg (by simp [icmpEchoHeader, be16]) (show Icmp.isValid cfg (icmpEchoHeader t ick i n) = _ from hvalid)
  have vq : Information.isRequest (icmpEchoHeader t ick i n) = .ok (IcmpKind.ofWire t == .informationRequest) := rfl
  refine ⟨_, (by
    unfold copyInformation
    rw [vq, vi, vn]
    simp only [Outcome.ok_bind]
    rfl), ?_⟩
  refine ⟨(by intro v hv; cases hv), fun m hm => ?_⟩
  have hin : ∀ op k, InformationOp.kind? op = some k → k.toWire = t → op = .request ∨ op = .reply →
      (IcmpInner.information [op, .identifier i, .sequence n]).abs cfg cfg.isizeMax m
        = .ok (icmpEchoHeader t ick i n) := by
    intro op k hk1 hk2 hop
    unfold IcmpInner.abs
    show (need cfg.isizeMax (m + 8) >>= _) = _
    have hrun : runOps InformationOp.abs [op, .identifier i, .sequence n] .init
        = .ok ⟨some t, i, n⟩ := by
      rw [information_run [op, .identifier i, .sequence n], ← hk2]
      rcases hop with rfl | rfl <;> (injection hk1 with hk1; subst hk1; rfl)
    rw [need_dynamic (by omega), Outcome.ok_bind, hrun, Outcome.ok_bind]
    show (Icmp.checksumOf cfg (icmpEchoHeader t 0#16 i n) >>= _) = _
    rw [hck]
    rfl
  rcases hk with rfl | rfl
  · rw [if_pos (by decide), hin .request _ rfl rfl (.inl rfl)]
  · rw [if_neg (by decide), hin .reply _ rfl rfl (.inr rfl)]

theorem information_rebuilt (cfg : Cfg) {p d : Bytes} {f : Ipv4Fields} {ck : U16} {vops : List V4Op} {a : V4State}
    (h : Asks cfg p d f ck vops a) (hpr : f.protocol = 1#8)
    (hnew : Information.new d = .ok d) (hlen : d.length = 8)
    (hcode : Icmp.code d = .ok 0) (hvalid : Icmp.isValid cfg d = .ok true) :
    ∃ ops, copyInformation d = .ok ops ∧ ipv4Program cfg Dynamic.new vops (.icmp (.information ops)) = .ok p ∧ (Inner.icmp (.information ops)).Sane cfg := by
  obtain ⟨hok, hsize, hshape, hsane, hrun, hnone, hfields, hseal⟩ := h
  rw [hpr] at hfields
  obtain ⟨ops, e1, e2, e3⟩ := information_message cfg (Nat.le_of_lt (by (have := cfg.width; omega))) hnew hlen hcode hvalid
  refine ⟨ops, e1, ?_, e2⟩
  rw [ipv4Program_dynamic cfg _ _ hsane e2]
  unfold ipv4Abs
  rw [need_dynamic (by omega), Outcome.ok_bind, hrun, Outcome.ok_bind, icmp_inner_abs cfg _ hnone hfields,
    e3 20 (by omega), Outcome.ok_bind, hseal]

/-- C95: every plain IPv4 packet with a valid information message is rebuilt byte for byte.
Missing: packets with options, with a flag set (`C95_dont_fragment_refuted`), or with bytes that no accessor shows. -/
theorem C95_information_rebuild_partial (cfg : Cfg) {p d : Bytes} (hp : PlainV4 cfg p) (hd : V4.payload p = .ok d)
    (hproto : V4.protocol p = .ok .icmp) (hnew : Information.new d = .ok d) (hlen : d.length = 8)
    (hcode : Icmp.code d = .ok 0) (hvalid : Icmp.isValid cfg d = .ok true) :
    rebuildInformation cfg p = .ok p := by
  obtain ⟨f, ck, rest, vops, a, hpay, hpr, hcopy, ha⟩ := plain_copy cfg hp
  rw [hd] at hpay; injection hpay with hpay; subst hpay
  rw [hproto] at hpr; injection hpr with hpr
  obtain ⟨ops, e1, e2, -⟩ := information_rebuilt cfg ha (ofWire_protocol (n := 1#8) hpr.symm rfl) hnew hlen hcode hvalid
  unfold rebuildInformation
  rw [hd, hcopy]
  simp only [Outcome.ok_bind]
  rw [e1, Outcome.ok_bind, e2]

/-! ## Ethernet -/

theorem ether_shape (f : Bytes) (h : 14 ≤ f.length) :
    ∃ (d s : HwAddr) (t : U16) (q : Bytes), f = ethernetFrame d.octets s.octets t q := by
  rcases f with _ | ⟨a0, _ | ⟨a1, _ | ⟨a2, _ | ⟨a3, _ | ⟨a4, _ | ⟨a5, _ | ⟨a6, _ | ⟨a7, _ | ⟨a8, _ | ⟨a9, _ | ⟨b0,
    _ | ⟨b1, _ | ⟨b2, _ | ⟨b3, r⟩⟩⟩⟩⟩⟩⟩⟩⟩⟩⟩⟩⟩⟩ <;>
    first | (simp only [List.length_cons, List.length_nil] at h; omega) | skip
  refine ⟨⟨a0, a1, a2, a3, a4, a5⟩, ⟨a6, a7, a8, a9, b0, b1⟩, fromBe16 b2 b3, r, ?_⟩
  simp only [ethernetFrame, be16_fromBe16]
  rfl

/-- C95 for Ethernet: every accepted frame can be rebuilt (if longer, it takes more than a quarter of the address space). -/
theorem C95_ether_rebuild (cfg : Cfg) {f : Bytes} (hnew : Ether.new f = .ok f) (hlen : f.length ≤ cfg.usizeMod / 4) :
    rebuildEther cfg f = .ok f := by
  have h14 : 14 ≤ f.length := by
    unfold Ether.new Ether.headerMin at hnew
    split at hnew
    · cases hnew
    · omega
  obtain ⟨d, s, t, q, rfl⟩ := ether_shape f h14
  obtain ⟨-, v1, v2, v3, v4⟩ := ether_view d s t q
  unfold rebuildEther copyEther
  rw [v1, v2, v3, v4]
  simp only [Outcome.ok_bind]
  obtain ⟨out, p, h1, h2, -⟩ := C42_ether_build cfg
    [.destination d, .source s, .protocol (EtherProtocol.ofWire t), .payload q] (Nat.le_refl 1) (by
      intro op hop v hv
      have : v = q := by
        simp only [List.mem_cons, List.not_mem_nil, or_false] at hop
        rcases hop with rfl | rfl | rfl | rfl <;> first | (cases hv; done) | (injection hv with hv; exact hv.symm)
      subst this
      have hl : (ethernetFrame d.octets s.octets t v).length = 14 + v.length := by
        simp [ethernetFrame, be16, HwAddr.octets]; omega
      omega)
  rw [h1, h2]
  show Outcome.ok (ethernetFrame d.octets s.octets (EtherProtocol.ofWire t).toWire q) = _
  rw [C40_ether_protocol.wire]

/-- A concrete case that meets the hypotheses. -/
example (cfg : Cfg) := C95_ether_rebuild cfg (f := Sample.udpFrame) (by decide) (by call_by_call)

/-- C95 for stacks: an accepted frame that carries IPv4 is rebuilt by the program that rebuilds the packet in it. -/
theorem C95_frame_rebuild (cfg : Cfg) {fr p : Bytes} (hnew : Ether.new fr = .ok fr)
    (hproto : Ether.protocol fr = .ok .ipv4) (hpay : Ether.payload fr = .ok p) (vops : List V4Op) (inner : Inner)
    (hin : inner ≠ .plain) (hv : ∀ op ∈ vops, op.Sane cfg) (hi : inner.Sane cfg)
    (h : ipv4Program cfg Dynamic.new vops inner = .ok p) :
    (do
      let d ← Ether.destination fr
      let s ← Ether.source fr
      ethernetProgram cfg Dynamic.new [.destination d, .source s] vops inner) = .ok fr := by
  have h14 : 14 ≤ fr.length := by
    unfold Ether.new Ether.headerMin at hnew
    split at hnew
    · cases hnew
    · omega
  obtain ⟨d, s, t, q, rfl⟩ := ether_shape fr h14
  obtain ⟨-, v1, v2, v3, v4⟩ := ether_view d s t q
  rw [v4] at hpay
  have hpay := Outcome.ok.inj hpay
  subst hpay
  rw [v3] at hproto
  have hproto := Outcome.ok.inj hproto
  rw [v1, v2]
  simp only [Outcome.ok_bind]
  have := C49_stack_compose cfg [.destination d, .source s] vops inner rfl hv hi (fun e => absurd e hin)
  rw [h] at this
  obtain ⟨frame, h1, h2⟩ := this
  rw [h1, h2.bytes]
  show Outcome.ok (ethernetFrame d.octets s.octets EtherProtocol.ipv4.toWire q) = _
  rw [← hproto, C40_ether_protocol.wire]

/-- A concrete case that meets the hypotheses. -/
example (cfg : Cfg) := C95_frame_rebuild cfg (fr := Sample.udpFrame) (p := Sample.udpPacket) (by decide) (by decide)
    (by decide) Sample.vops (.udp Sample.uops) (fun h => by cases h) (by call_by_call) (by call_by_call)
    (by in_every_build)

/-! ## What cannot be rebuilt -/

/-- C95 is false of the code for packets with DF set: an accepted, valid IPv4 packet without options whose flags()
reports DF.  No sequence of builder calls with offsets of 13 bits, and nothing inside the packet, builds it. -/
theorem C95_dont_fragment_refuted :
    ∃ p : Bytes, V4.new p = .ok p ∧ V4.ihl p = .ok 5 ∧ field p 16 16 = p.length ∧
      V4.flags p = .ok .dontFragment ∧ V4.offset p = .ok 0 ∧ V4.protocol p = .ok .udp ∧
      (∀ cfg, V4.isValid cfg p = .ok true) ∧
      ∀ cfg vops inner, (∀ op ∈ vops, op.Sane cfg) → inner.Sane cfg → (∀ v, V4Op.offset v ∈ vops → v.toNat < 8192) →
        ipv4Program cfg Dynamic.new vops inner ≠ .ok p := by
  refine ⟨[69, 0, 0, 28, 0, 1, 64, 0, 64, 17, 38, 206, 10, 0, 0, 1, 10, 0, 0, 2, 0, 1, 0, 2, 0, 8, 235, 216],
    by decide +kernel, by decide +kernel, by decide +kernel, by decide +kernel, by decide +kernel, by decide +kernel,
    ?_, ?_⟩
  · intro cfg
    obtain ⟨oc, ea, nw⟩ := cfg
    cases oc <;> cases ea <;> cases nw <;> decide +kernel
  · intro cfg vops inner hv hi ho h
    have := C97_no_flag_refuted cfg vops inner hv hi ho h
    revert this
    decide +kernel

/-! ## Concrete cases -/

/-! The packets the theorems speak about exist. -/

example (cfg : Cfg) : ∃ p d, PlainV4 cfg p ∧ V4.payload p = .ok d ∧ V4.protocol p = .ok .udp ∧ Udp.new d = .ok d ∧ field d 32 16 = d.length ∧
      Udp.isValid cfg (.v4 p) d = .ok true := by
  obtain ⟨oc, ea, nw⟩ := cfg
  refine ⟨[69, 185, 0, 30, 0, 1, 0, 3, 64, 17, 102, 16, 10, 0, 0, 1, 10, 0, 0, 2, 0, 1, 0, 2, 0, 10, 228,
      204, 7, 8],
    [0, 1, 0, 2, 0, 10, 228, 204, 7, 8], ?_, ?_, ?_, ?_, ?_, ?_⟩
  · constructor <;> cases oc <;> cases ea <;> cases nw <;> decide +kernel
  all_goals (cases oc <;> cases ea <;> cases nw <;> decide +kernel)

example (cfg : Cfg) : ∃ p d, PlainV4 cfg p ∧ V4.payload p = .ok d ∧ V4.protocol p = .ok .tcp ∧ Tcp.new d = .ok d ∧ Tcp.offset d = .ok 5 ∧ field d 100 3 = 0 ∧
      Tcp.isValid cfg (.v4 p) d = .ok true := by
  obtain ⟨oc, ea, nw⟩ := cfg
  refine ⟨[69, 185, 0, 44, 0, 1, 0, 3, 64, 6, 102, 13, 10, 0, 0, 1, 10, 0, 0, 2, 0, 80, 0, 99, 1, 2, 3,
      4, 5, 6, 7, 8, 81, 18, 1, 0, 132, 246, 0, 9, 1, 2, 3, 4],
    [0, 80, 0, 99, 1, 2, 3, 4, 5, 6, 7, 8, 81, 18, 1, 0, 132, 246, 0, 9, 1, 2, 3, 4], ?_, ?_, ?_, ?_, ?_, ?_, ?_⟩
  · constructor <;> cases oc <;> cases ea <;> cases nw <;> decide +kernel
  all_goals (cases oc <;> cases ea <;> cases nw <;> decide +kernel)

example (cfg : Cfg) : ∃ p d, PlainV4 cfg p ∧ V4.payload p = .ok d ∧ V4.protocol p = .ok .icmp ∧ Echo.new d = .ok d ∧ Icmp.code d = .ok 0 ∧ Icmp.isValid cfg d = .ok true := by
  obtain ⟨oc, ea, nw⟩ := cfg
  refine ⟨[69, 185, 0, 32, 0, 1, 0, 3, 64, 1, 102, 30, 10, 0, 0, 1, 10, 0, 0, 2, 8, 0, 243, 233, 0, 7,
      0, 9, 1, 2, 3, 4],
    [8, 0, 243, 233, 0, 7, 0, 9, 1, 2, 3, 4], ?_, ?_, ?_, ?_, ?_, ?_⟩
  · constructor <;> cases oc <;> cases ea <;> cases nw <;> decide +kernel
  all_goals (cases oc <;> cases ea <;> cases nw <;> decide +kernel)

example (cfg : Cfg) : ∃ p d, PlainV4 cfg p ∧ V4.payload p = .ok d ∧ V4.protocol p = .ok .icmp ∧ Timestamp.new d = .ok d ∧ d.length = 20 ∧ Icmp.code d = .ok 0 ∧
      Icmp.isValid cfg d = .ok true := by
  obtain ⟨oc, ea, nw⟩ := cfg
  refine ⟨[69, 185, 0, 40, 0, 1, 0, 3, 64, 1, 102, 22, 10, 0, 0, 1, 10, 0, 0, 2, 14, 0, 241, 233, 0, 7,
      0, 9, 0, 0, 0, 1, 0, 0, 0, 2, 0, 0, 0, 3],
    [14, 0, 241, 233, 0, 7, 0, 9, 0, 0, 0, 1, 0, 0, 0, 2, 0, 0, 0, 3], ?_, ?_, ?_, ?_, ?_, ?_, ?_⟩
  · constructor <;> cases oc <;> cases ea <;> cases nw <;> decide +kernel
  all_goals (cases oc <;> cases ea <;> cases nw <;> decide +kernel)

example (cfg : Cfg) : ∃ p d, PlainV4 cfg p ∧ V4.payload p = .ok d ∧ V4.protocol p = .ok .icmp ∧ Information.new d = .ok d ∧ d.length = 8 ∧ Icmp.code d = .ok 0 ∧
      Icmp.isValid cfg d = .ok true := by
  obtain ⟨oc, ea, nw⟩ := cfg
  refine ⟨[69, 185, 0, 28, 0, 1, 0, 3, 64, 1, 102, 34, 10, 0, 0, 1, 10, 0, 0, 2, 15, 0, 240, 239, 0, 7, 0, 9],
    [15, 0, 240, 239, 0, 7, 0, 9], ?_, ?_, ?_, ?_, ?_, ?_, ?_⟩
  · constructor <;> cases oc <;> cases ea <;> cases nw <;> decide +kernel
  all_goals (cases oc <;> cases ea <;> cases nw <;> decide +kernel)

end Verif.Props

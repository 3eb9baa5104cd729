import Verif.Model.Debug
import Verif.Props.Stack
import Verif.Props.Options
import Verif.Samples

/-! # C61: `{:?}` -/

namespace Verif.Props
open Verif Verif.Spec

theorem shown_ok {α : Type} {f : α → Shown} {x : Outcome α} {v : α} (h : x = .ok v) :
    shown f x = .ok (f v) := by unfold shown; rw [h]; rfl

/-- C80, TCP: formatting an accepted segment shows every field of the header under its name, and the
payload. -/
theorem C80_tcp_debug (cfg : Cfg) (b : Bytes) (hb : b.length < cfg.usizeMod) (h : Tcp.new b = .ok b) :
    ∃ flags : TcpFlags, flags.bits = BitVec.ofNat 16 (field b 103 9) ∧
      Tcp.debug b = .ok ⟨"tcp::Packet", [
        ("source", .u16 (BitVec.ofNat 16 (field b 0 16))),
        ("destination", .u16 (BitVec.ofNat 16 (field b 16 16))),
        ("sequence", .u32 (BitVec.ofNat 32 (field b 32 32))),
        ("acknowledgment", .u32 (BitVec.ofNat 32 (field b 64 32))),
        ("offset", .u8 (BitVec.ofNat 8 (field b 96 4))),
        ("flags", .tcpFlags flags),
        ("window", .u16 (BitVec.ofNat 16 (field b 112 16))),
        ("checksum", .u16 (BitVec.ofNat 16 (field b 128 16))),
        ("pointer", .u16 (BitVec.ofNat 16 (field b 144 16))),
        ("payload", .bytes (b.drop (field b 96 4 * 4)))]⟩ := by
  obtain ⟨-, h20, -⟩ := Tcp.new_ok_iff.1 h
  obtain ⟨e1, e2, e3, e4, e5, ⟨f, e6, hf⟩, e7, e8, e9⟩ := C24_tcp_fields b h20
  obtain ⟨-, e10, -⟩ := C24_tcp_views cfg b hb h
  refine ⟨f, hf, ?_⟩
  unfold Tcp.debug
  rw [shown_ok e1, shown_ok e2, shown_ok e3, shown_ok e4, shown_ok e5, shown_ok e6, shown_ok e7, shown_ok e8,
    shown_ok e9, shown_ok e10]
  rfl

/-- A concrete case that meets the hypotheses. -/
example (cfg : Cfg) := C80_tcp_debug cfg Sample.tcp (by in_every_build) (by decide)

/-- C80, IPv4: formatting an accepted packet panics exactly when the MF bit is set; otherwise it shows every
field under its name and the payload, and marks the name with `!` exactly when the packet does not verify. -/
theorem C80_v4_debug (cfg : Cfg) (b : Bytes) (h : V4.new b = .ok b) :
    (bitAt b 50 = true → V4.debug cfg b = .panic) ∧
    (bitAt b 50 = false → ∃ valid flags src dst, V4.isValid cfg b = .ok valid ∧ V4.flags b = .ok flags ∧
      src.octets = (b.drop 12).take 4 ∧ dst.octets = (b.drop 16).take 4 ∧
      V4.debug cfg b = .ok ⟨if valid then "ip::v4::Packet" else "ip::v4::Packet!", [
        ("version", .u8 (BitVec.ofNat 8 (field b 0 4))),
        ("header", .u8 (BitVec.ofNat 8 (field b 4 4))),
        ("dscp", .u8 (BitVec.ofNat 8 (field b 8 6))),
        ("ecn", .u8 (BitVec.ofNat 8 (field b 14 2))),
        ("length", .u16 (BitVec.ofNat 16 (field b 16 16))),
        ("id", .u16 (BitVec.ofNat 16 (field b 32 16))),
        ("flags", .v4Flags flags),
        ("offset", .u16 (BitVec.ofNat 16 (field b 51 13))),
        ("ttl", .u8 (BitVec.ofNat 8 (field b 64 8))),
        ("protocol", .ipProtocol (IpProtocol.ofWire (BitVec.ofNat 8 (field b 72 8)))),
        ("checksum", .u16 (BitVec.ofNat 16 (field b 80 16))),
        ("source", .ipv4Addr src),
        ("destination", .ipv4Addr dst),
        ("payload", .bytes ((b.drop (4 * field b 4 4)).take (field b 16 16 - 4 * field b 4 4)))]⟩) := by
  have hlong := (V4.new_ok_iff.1 h).2.long
  obtain ⟨h1, h2, h3, h4, h5, h6, h7, h8, h9, h10, ⟨src, h11, hsrc⟩, ⟨dst, h12, hdst⟩⟩ :=
    C14_v4_fields b hlong
  have hval : ∃ v, V4.isValid cfg b = .ok v := by
    have hok := (V4.new_ok_iff.1 h).2
    unfold V4.isValid
    rw [V4.header_eq (by omega) hok.header, Outcome.ok_bind, V4.checksumOf_eq, Outcome.ok_bind, h10]
    exact ⟨_, rfl⟩
  obtain ⟨valid, hval⟩ := hval
  have hfl := C14_v4_flags_exact b hlong
  constructor
  · intro hm
    rw [if_pos hm] at hfl
    have : shown .v4Flags (V4.flags b) = .panic := by unfold shown; rw [hfl]; rfl
    unfold V4.debug
    rw [hval, shown_ok h1, shown_ok h2, shown_ok h3, shown_ok h4, shown_ok h5, shown_ok h6, this]
    rfl
  · intro hm
    rw [if_neg (by simp [hm])] at hfl
    obtain ⟨f, hf, -⟩ := hfl
    refine ⟨valid, f, src, dst, hval, hf, hsrc, hdst, ?_⟩
    unfold V4.debug
    rw [hval, shown_ok h1, shown_ok h2, shown_ok h3, shown_ok h4, shown_ok h5, shown_ok h6, shown_ok hf,
      shown_ok h7, shown_ok h8, shown_ok h9, shown_ok h10, shown_ok h11, shown_ok h12,
      shown_ok (C15_v4_split b h).2.1]
    cases valid <;> rfl

/-- A concrete case that meets the hypotheses. -/
example (cfg : Cfg) := C80_v4_debug cfg Sample.udpPacket (by decide)

/-- C80, ICMP. -/
theorem C80_icmp_debug (cfg : Cfg) (b : Bytes) (hb : b.length < cfg.usizeMod) (h : Icmp.new b = .ok b) :
    ∃ valid, Icmp.isValid cfg b = .ok valid ∧
      Icmp.debug cfg b = .ok ⟨if valid then "icmp::Packet" else "icmp::Packet!", [
        ("kind", .icmpKind (IcmpKind.ofWire (BitVec.ofNat 8 (field b 0 8)))),
        ("code", .u8 (BitVec.ofNat 8 (field b 8 8))),
        ("checksum", .u16 (BitVec.ofNat 16 (field b 16 16))),
        ("payload", .bytes (b.drop 4))]⟩ := by
  obtain ⟨e1, e2, e3, -, e4, -⟩ := C34_icmp_views cfg b hb h
  have hval : ∃ v, Icmp.isValid cfg b = .ok v := by
    unfold Icmp.isValid
    rw [Icmp.checksumOf_eq, Outcome.ok_bind, e3]
    exact ⟨_, rfl⟩
  obtain ⟨valid, hval⟩ := hval
  refine ⟨valid, hval, ?_⟩
  unfold Icmp.debug
  rw [hval, shown_ok e1, shown_ok e2, shown_ok e3, shown_ok e4]
  cases valid <;> rfl

/-- A concrete case that meets the hypotheses. -/
example (cfg : Cfg) := C80_icmp_debug cfg Sample.echo (by in_every_build) (by decide)

/-- C80, echo and information. -/
theorem C80_echo_information_debug (cfg : Cfg) (b : Bytes) (hb : b.length < cfg.usizeMod) :
    (Echo.new b = .ok b → Echo.debug b = .ok ⟨"icmp::echo::Packet", [
        ("request", .bool (decide (field b 0 8 = 8))),
        ("identifier", .u16 (BitVec.ofNat 16 (field b 32 16))),
        ("sequence", .u16 (BitVec.ofNat 16 (field b 48 16))),
        ("payload", .bytes (b.drop 8))]⟩) ∧
    (Information.new b = .ok b → Information.debug b = .ok ⟨"icmp::information::Packet", [
        ("request", .bool (decide (field b 0 8 = 15))),
        ("identifier", .u16 (BitVec.ofNat 16 (field b 32 16))),
        ("sequence", .u16 (BitVec.ofNat 16 (field b 48 16)))]⟩) := by
  constructor
  · intro h
    obtain ⟨e1, -, -, e2, e3, -, e4, -⟩ := C36_echo_fields cfg b hb h
    unfold Echo.debug
    rw [shown_ok e1, shown_ok e2, shown_ok e3, shown_ok e4]
    rfl
  · intro h
    obtain ⟨e1, -, e2, e3, -⟩ := C37_information b h
    unfold Information.debug
    rw [shown_ok e1, shown_ok e2, shown_ok e3]
    rfl

/-- A concrete case that meets the hypotheses. -/
example (cfg : Cfg) := C80_echo_information_debug cfg Sample.information (by in_every_build)

/-- C80, Ethernet: never a panic, protocol and payload are right, and the destination is shown under the
label `source` and the source under `destination`. -/
theorem C80_ether_debug (cfg : Cfg) (b : Bytes) (hb : b.length < cfg.usizeMod) (h : Ether.new b = .ok b) :
    ∃ src dst, dst.octets = b.take 6 ∧ src.octets = (b.drop 6).take 6 ∧
      Ether.debug b = .ok ⟨"ether::Packet", [
        ("destination", .hwAddr src),
        ("source", .hwAddr dst),
        ("protocol", .etherProtocol (EtherProtocol.ofWire (BitVec.ofNat 16 (field b 96 16)))),
        ("payload", .bytes (b.drop 14))]⟩ := by
  obtain ⟨⟨dst, e1, h1⟩, ⟨src, e2, h2⟩, e3, -, e4, -⟩ := C10_ether_views cfg b hb h
  refine ⟨src, dst, h1, h2, ?_⟩
  unfold Ether.debug
  rw [shown_ok e1, shown_ok e2, shown_ok e3, shown_ok e4]
  rfl

/-- A concrete case that meets the hypotheses. -/
example (cfg : Cfg) := C80_ether_debug cfg Sample.udpFrame (by in_every_build) (by decide)

/-- C80, UDP: never a panic, and the length is shown under the label `checksum`. -/
theorem C80_udp_debug (b : Bytes) (h : Udp.new b = .ok b) :
    Udp.debug b = .ok ⟨"udp::Packet", [
        ("source", .u16 (BitVec.ofNat 16 (field b 0 16))),
        ("destination", .u16 (BitVec.ofNat 16 (field b 16 16))),
        ("checksum", .u16 (BitVec.ofNat 16 (field b 32 16))),
        ("checksum", .u16 (BitVec.ofNat 16 (field b 48 16))),
        ("payload", .bytes ((b.drop 8).take (field b 32 16 - 8)))]⟩ := by
  obtain ⟨-, h8, -⟩ := Udp.new_ok_iff.1 h
  obtain ⟨e1, e2, e3, e4⟩ := C21_udp_fields b h8
  obtain ⟨-, e5, -⟩ := C21_udp_views b h
  unfold Udp.debug
  rw [shown_ok e1, shown_ok e2, shown_ok e3, shown_ok e4, shown_ok e5]
  rfl

/-- A concrete case that meets the hypotheses. -/
example := C80_udp_debug Sample.udp (by decide)

/-- C80 for `ip::v6::Packet`: it shows its name and no field. -/
theorem v6_debug (b : Bytes) : V6.debug b = .ok ⟨"ip::v6::Packet", []⟩ := rfl

/-- C80, timestamp: never a panic, and all three timestamps are shown as the bytes behind byte 8. -/
theorem C80_timestamp_debug (b : Bytes) (h : Timestamp.new b = .ok b) :
    Timestamp.debug b = .ok ⟨"icmp::timestamp::Packet", [
        ("request", .bool (decide (field b 0 8 = 13))),
        ("identifier", .u16 (BitVec.ofNat 16 (field b 32 16))),
        ("sequence", .u16 (BitVec.ofNat 16 (field b 48 16))),
        ("originate", .bytes (b.drop 8)), ("receive", .bytes (b.drop 8)),
        ("transmit", .bytes (b.drop 8))]⟩ := by
  obtain ⟨hl, -⟩ := timestamp_ok h
  obtain ⟨e1, -, e2, e3, -⟩ := C37_timestamp b h
  have e4 : Timestamp.payload b = .ok (b.drop 8) := by
    unfold Timestamp.payload Timestamp.split; rw [splitAt_ok (by omega)]; rfl
  unfold Timestamp.debug
  rw [shown_ok e1, shown_ok e2, shown_ok e3, shown_ok e4]
  rfl

/-- A concrete case that meets the hypotheses. -/
example := C80_timestamp_debug Sample.timestamp (by decide)

/-- C80, messages that quote a packet: the formatting panics exactly when the quoted packet parses and has
the MF bit set; otherwise the quoted packet is shown as it is shown on its own, or the error. -/
theorem C80_quoted_debug (cfg : Cfg) (b : Bytes)
    (h : Previous.new b = .ok b ∨ Redirect.new b = .ok b ∨ ParamProblem.new b = .ok b) :
    ∃ gw : Ipv4Addr, gw.octets = (b.drop 4).take 4 ∧
    (∀ e, V4.new (b.drop 8) = .err e →
      Previous.debug cfg b = .ok ⟨"icmp::previous::Packet", [], .error e⟩ ∧
      Redirect.debug cfg b = .ok ⟨"icmp::redirect_message::Packet", [("gateway", .ipv4Addr gw)], .error e⟩ ∧
      ParamProblem.debug cfg b = .ok ⟨"icmp::parameter_problem::Packet",
        [("pointer", .u8 (BitVec.ofNat 8 (field b 32 8)))], .error e⟩) ∧
    (V4.new (b.drop 8) = .ok (b.drop 8) → bitAt b 114 = true →
      Previous.debug cfg b = .panic ∧ Redirect.debug cfg b = .panic ∧ ParamProblem.debug cfg b = .panic) ∧
    (V4.new (b.drop 8) = .ok (b.drop 8) → bitAt b 114 = false →
      ∃ d, V4.debug cfg (b.drop 8) = .ok d ∧
        Previous.debug cfg b = .ok ⟨"icmp::previous::Packet", [], .ok d⟩ ∧
        Redirect.debug cfg b = .ok ⟨"icmp::redirect_message::Packet", [("gateway", .ipv4Addr gw)], .ok d⟩ ∧
        ParamProblem.debug cfg b = .ok ⟨"icmp::parameter_problem::Packet",
          [("pointer", .u8 (BitVec.ofNat 8 (field b 32 8)))], .ok d⟩) := by
  have hl := quoted_ok h
  have hq : quotedPacket b = V4.new (b.drop 8) := by
    unfold quotedPacket; rw [sliceFrom_ok hl]; rfl
  have hp : ParamProblem.pointer b = .ok (BitVec.ofNat 8 (field b 32 8)) := idx_field (k := 4) (by omega)
  have hg : ∃ g, Redirect.gateway b = .ok g ∧ g.octets = (b.drop 4).take 4 := by
    unfold Redirect.gateway
    rw [idx_ok (by omega), idx_ok (by omega), idx_ok (by omega), idx_ok (by omega)]
    exact ⟨_, rfl, octets4 (by omega) _ rfl⟩
  obtain ⟨g, hg, hgo⟩ := hg
  have hbit : bitAt (b.drop 8) 50 = bitAt b 114 := bitAt_drop b 8 50
  have e1 : Previous.packet b = V4.new (b.drop 8) := hq
  have e2 : Redirect.packet b = V4.new (b.drop 8) := hq
  have e3 : ParamProblem.packet b = V4.new (b.drop 8) := hq
  unfold Previous.debug Redirect.debug ParamProblem.debug
  rw [e1, e2, e3, shown_ok hg, shown_ok hp]
  refine ⟨g, hgo, fun e he => ?_, fun hv hm => ?_, fun hv hm => ?_⟩
  · rw [he]; exact ⟨rfl, rfl, rfl⟩
  · have := (C80_v4_debug cfg _ hv).1 (by rw [hbit]; exact hm)
    rw [hv]
    simp only [debugPacket, this]
    exact ⟨rfl, rfl, rfl⟩
  · obtain ⟨valid, f, src, dst, -, -, -, -, hd⟩ := (C80_v4_debug cfg _ hv).2 (by rw [hbit]; exact hm)
    refine ⟨_, hd, ?_⟩
    rw [hv]
    simp only [debugPacket, hd]
    exact ⟨rfl, rfl, rfl⟩

/-- A concrete case that meets the hypotheses. -/
example (cfg : Cfg) := C80_quoted_debug cfg Sample.unreachable (.inl (by decide))

/-- The accessors of an option's type byte never return an error. -/
theorem option_accessors_no_err (o : Bytes) (e : Error) : TcpOpt.number o ≠ .err e ∧ V4Opt.number o ≠ .err e ∧
    V4Opt.class_ o ≠ .err e ∧ V4Opt.isCopied o ≠ .err e := by
  cases o with
  | nil => exact ⟨(fun h => by cases h), (fun h => by cases h), (fun h => by cases h), (fun h => by cases h)⟩
  | cons x t =>
    refine ⟨(fun h => by cases h), (fun h => by cases h), ?_, (fun h => by cases h)⟩
    have : V4Opt.class_ (x :: t) = (let v := (x >>> 5) &&& 0b011#8
        if v = 0#8 then .ok .control else if v = 2#8 then .ok .debugging else .ok (.reserved v)) := rfl
    rw [this]
    dsimp only
    split
    · exact fun h => by cases h
    · split <;> exact fun h => by cases h

/-- C80, options yielded by the iterators: formatting panics exactly for an option with length byte 0
(possible only without overflow checks); otherwise number, length and payload are the accessors'. -/
theorem C80_option_debug (cfg : Cfg) (b o r : Bytes) :
    (Opt.next cfg tcpOptKind b = (.ok (some (.ok o)), r) →
      (TcpOpt.debug o = .panic ↔ Opt.length tcpOptKind o = .ok 0#8) ∧
      ∀ d, TcpOpt.debug o = .ok d → ∃ n l p, TcpOpt.number o = .ok n ∧ Opt.length tcpOptKind o = .ok l ∧
        Opt.payload tcpOptKind o = .ok p ∧
        d = ⟨"tcp::Option", [("number", .tcpNumber n), ("length", .u8 l), ("payload", .bytes p)]⟩) ∧
    (Opt.next cfg v4OptKind b = (.ok (some (.ok o)), r) →
      (V4Opt.debug o = .panic ↔ Opt.length v4OptKind o = .ok 0#8) ∧
      ∀ d, V4Opt.debug o = .ok d → ∃ i c n l p, V4Opt.isCopied o = .ok i ∧ V4Opt.class_ o = .ok c ∧
        V4Opt.number o = .ok n ∧ Opt.length v4OptKind o = .ok l ∧ Opt.payload v4OptKind o = .ok p ∧
        d = ⟨"ip::v4::Option", [("is_copied", .bool i), ("class", .v4Class c), ("number", .v4Number n),
          ("length", .u8 l), ("payload", .bytes p)]⟩) := by
  refine ⟨fun h => ?_, fun h => ?_⟩
  · obtain ⟨hl, -, hn, -, -, -, hp, -, -⟩ := C73_accessors_panic_iff cfg b o r _ (.inl rfl) h
    have hne := fun e => (option_accessors_no_err o e).1
    unfold TcpOpt.debug
    revert hl hn hp hne
    cases TcpOpt.number o <;> cases Opt.length tcpOptKind o <;> cases Opt.payload tcpOptKind o <;>
      simp [debugFields, shown, Outcome.returns, bind, Outcome.bind]
  · obtain ⟨hl, -, -, hn, hc, hi, hp, -, -⟩ := C73_accessors_panic_iff cfg b o r _ (.inr rfl) h
    have hn1 := fun e => (option_accessors_no_err o e).2.1
    have hn2 := fun e => (option_accessors_no_err o e).2.2.1
    have hn3 := fun e => (option_accessors_no_err o e).2.2.2
    unfold V4Opt.debug
    revert hl hn hc hi hp hn1 hn2 hn3
    cases V4Opt.isCopied o <;> cases V4Opt.class_ o <;> cases V4Opt.number o <;>
      cases Opt.length v4OptKind o <;> cases Opt.payload v4OptKind o <;>
      simp [debugFields, shown, Outcome.returns, bind, Outcome.bind]

/-- C61 is false of the code: an Ethernet frame with the addresses under each other's label, a datagram with
its length under the label `checksum`, a timestamp message without its timestamps, and an ordinary
fragment whose formatting panics. -/
theorem C61_refuted (cfg : Cfg) :
    (∃ b d v, Ether.new b = .ok b ∧ Ether.debug b = .ok d ∧ ("destination", .hwAddr v) ∈ d.fields ∧
      Ether.destination b ≠ .ok v) ∧
    (∃ b d v, Udp.new b = .ok b ∧ Udp.debug b = .ok d ∧ ("checksum", .u16 v) ∈ d.fields ∧
      Udp.checksum b ≠ .ok v) ∧
    (∃ b d v, Timestamp.new b = .ok b ∧ Timestamp.debug b = .ok d ∧ Timestamp.originate b = .ok v ∧
      ("originate", .u32 v) ∉ d.fields) ∧
    (∃ b, V4.new b = .ok b ∧ V4.debug cfg b = .panic) := by
  refine ⟨⟨[1, 2, 3, 4, 5, 6, 7, 8, 9, 10, 11, 12, 8, 0], _, ⟨7, 8, 9, 10, 11, 12⟩, by decide, rfl, by decide,
      by decide⟩,
    ⟨[0, 53, 0, 54, 0, 8, 0, 0], _, 8, by decide, rfl, by decide, by decide⟩,
    ⟨13 :: zeros 19, _, 0, by decide, rfl, by decide, by decide⟩,
    ⟨[0x45, 0, 0, 20, 0, 0, 0x20, 0, 64, 17, 0, 0, 10, 0, 0, 1, 10, 0, 0, 2], by decide, ?_⟩⟩
  exact (C80_v4_debug cfg _ (by decide)).1 (by decide)

end Verif.Props

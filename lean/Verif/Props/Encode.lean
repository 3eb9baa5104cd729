import Verif.Spec.Encode
import Verif.Props.Rebuild
import Verif.Props.BuilderWords
import Verif.Props.BuildersTransport
import Verif.Props.BuildersIcmp
import Verif.Props.Checksum
import Verif.Samples

/-!
# C102: built packets are byte for byte the RFC encodings
-/

namespace Verif

/-- The IPv4 header fields a history of builder calls puts on the wire (for the type of service and the
fragment word see C98). -/
def V4Op.asked (vops : List V4Op) (protocol : U8) : Spec.Ipv4Fields where
  tos := BitVec.ofNat 8 (4 * (vops.foldl (fun x op => op.track x) (0, 0)).1 +
    (vops.foldl (fun x op => op.track x) (0, 0)).2)
  id := Spec.last V4Op.id? 0 vops
  fragment := Spec.last V4Op.word? 0 vops
  ttl := Spec.last V4Op.ttl? 0 vops
  protocol := protocol
  src := (Spec.last V4Op.source? .zero vops).octets
  dst := (Spec.last V4Op.destination? .zero vops).octets

/-- The TCP header fields a history of builder calls asks for. -/
def TcpOp.asked (tops : List TcpOp) : Spec.TcpFields :=
  ⟨Spec.last TcpOp.source? 0 tops, Spec.last TcpOp.destination? 0 tops, Spec.last TcpOp.sequence? 0 tops,
    Spec.last TcpOp.acknowledgment? 0 tops, Spec.last TcpOp.window? 0 tops, Spec.last TcpOp.pointer? 0 tops⟩

end Verif

namespace Verif.Props
open Verif Verif.Spec

theorem v4_asked_run (vops : List V4Op) (hr : ∀ op ∈ vops, op.InRange) (h0 : vops.filterMap V4Op.payload? = []) :
    ∃ a, runOps V4Op.abs vops .init = .ok a ∧ a.payload = none ∧
      a.fields = V4Op.asked vops (last V4Op.protocol? (.ofWire 0) vops).toWire := by
  obtain ⟨f, ha, hrun⟩ := v4_run vops hr (by rw [h0]; decide)
  refine ⟨_, hrun, by rw [h0]; rfl, ?_⟩
  have ht := tos_run vops _ _ hrun
  have hw := word_run vops _ hrun
  simp only at ht hw
  obtain ⟨tos, id, fragment, ttl, protocol, src, dst⟩ := f
  have e1 := ha.id; have e2 := ha.ttl; have e3 := ha.src; have e4 := ha.dst; have e5 := ha.protocol
  simp only at e1 e2 e3 e4 e5 ht hw
  show Ipv4Fields.mk tos id fragment ttl protocol src dst = _
  unfold V4Op.asked
  rw [← e1, ← e2, ← e3, ← e4, ← e5, ← hw]
  have hz : (((V4State.init).fields.tos.toNat / 4, (V4State.init).fields.tos.toNat % 4) : Nat × Nat) = (0, 0) := rfl
  rw [hz] at ht
  rw [← ht]
  simp only
  congr 1
  apply BitVec.eq_of_toNat_eq
  have := tos.isLt
  rw [BitVec.toNat_ofNat, Nat.div_add_mod, Nat.mod_eq_of_lt this]

theorem asked_ok (vops : List V4Op) (w : U8) : Ipv4Fields.ok (V4Op.asked vops w) := ⟨⟨_, rfl⟩, ⟨_, rfl⟩⟩

theorem sealV4_packet (cfg : Cfg) {f : Ipv4Fields} (hf : Ipv4Fields.ok f) (d : Bytes) :
    sealV4 cfg f d = .ok (ipv4Packet f d) := by
  have hl := hf.length (BitVec.ofNat 16 (20 + d.length)) 0#16
  have hz : zeroed (ipv4Header f (BitVec.ofNat 16 (20 + d.length)) 0#16) 10 =
      ipv4Header f (BitVec.ofNat 16 (20 + d.length)) 0#16 := by
    obtain ⟨⟨s, hs⟩, ⟨t, ht⟩⟩ := hf
    obtain ⟨tos, id, fragment, ttl, protocol, src, dst⟩ := f
    cases hs; cases ht
    rfl
  have hc := C04_v4_checksum_rfc cfg (ipv4Header f (BitVec.ofNat 16 (20 + d.length)) 0#16) (by omega) (by omega) (by
    rw [hz]
    refine ⟨69 * 256 + f.tos.toNat, ?_, by omega⟩
    unfold ipv4Header
    simp only [List.cons_append, List.nil_append, words]
    exact List.mem_cons_self)
  rw [hz] at hc
  unfold sealV4 ipv4Packet
  rw [hc]
  rfl

/-- C102, IPv4 alone. -/
theorem C102_ipv4_bytes (cfg : Cfg) (vops : List V4Op) (hr : ∀ op ∈ vops, op.InRange)
    (h0 : vops.filterMap V4Op.payload? = []) :
    ipv4Program cfg Dynamic.new vops .plain =
      .ok (ipv4Packet (V4Op.asked vops (last V4Op.protocol? (.ofWire 0) vops).toWire) []) := by
  obtain ⟨a, h1, h2, h3⟩ := v4_asked_run vops hr h0
  rw [ipv4Program_dynamic cfg _ _ (v4_sane_of_none h0) (by intro v hv; cases hv)]
  unfold ipv4Abs
  rw [need_dynamic (by omega), Outcome.ok_bind, h1, Outcome.ok_bind]
  show a.raw cfg = _
  have hok : Ipv4Fields.ok a.fields := h3 ▸ asked_ok _ _
  rw [← h3]
  obtain ⟨f, p⟩ := a
  cases h2
  exact (raw_eq_seal cfg hok none (by decide)).trans (sealV4_packet cfg hok [])

/-- A concrete case that meets the hypotheses. -/
example (cfg : Cfg) := C102_ipv4_bytes cfg Sample.vops (by call_by_call) (by call_by_call)

theorem payload_bound {Op : Type} (f : Op → Option Bytes) (ops : List Op) (h1 : (ops.filterMap f).length ≤ 1) :
    ∀ v ∈ ops.filterMap f, last f [] ops = v := by
  intro v hv
  unfold last
  match h : ops.filterMap f with
  | [] => rw [h] at hv; cases hv
  | [w] => rw [h] at hv; simp at hv; rw [hv]; rfl
  | _ :: _ :: _ => rw [h] at h1; simp at h1

theorem fields_with (vops : List V4Op) (w : U8) {a : V4State}
    (h : a.fields = V4Op.asked vops (last V4Op.protocol? (.ofWire 0) vops).toWire) :
    { a.fields with protocol := w } = V4Op.asked vops w := by
  rw [h]; rfl

theorem header_addresses (vops : List V4Op) (w : U8) :
    ((ipv4Header (V4Op.asked vops w) 0#16 0#16).drop 12).take 4 = (last V4Op.source? .zero vops).octets ∧
    ((ipv4Header (V4Op.asked vops w) 0#16 0#16).drop 16).take 4 = (last V4Op.destination? .zero vops).octets :=
  ⟨rfl, rfl⟩

/-- C102, UDP in IPv4.  Not part of the claim: odd payload lengths on a `std` whose failed `read_exact` moves the
cursor (C60), and a checksum that comes out as zero (C66). -/
theorem C102_udp_bytes (cfg : Cfg) (vops : List V4Op) (uops : List UdpOp) (hr : ∀ op ∈ vops, op.InRange)
    (h0 : vops.filterMap V4Op.payload? = []) (h1 : (uops.filterMap UdpOp.payload?).length ≤ 1)
    (hsize : 28 + (last UdpOp.payload? [] uops).length ≤ 65535)
    (hodd : (last UdpOp.payload? [] uops).length % 2 = 0 ∨ cfg.eofAdvances = false)
    (hsum : udpSum (last V4Op.source? .zero vops).octets (last V4Op.destination? .zero vops).octets
      (last UdpOp.source? 0 uops) (last UdpOp.destination? 0 uops) (last UdpOp.payload? [] uops) ≠ 0) :
    ipv4Program cfg Dynamic.new vops (.udp uops) = .ok (ipv4Packet (V4Op.asked vops 17)
      (udpDatagram (last V4Op.source? .zero vops).octets (last V4Op.destination? .zero vops).octets
        (last UdpOp.source? 0 uops) (last UdpOp.destination? 0 uops) (last UdpOp.payload? [] uops))) := by
  obtain ⟨a, r1, r2, r3⟩ := v4_asked_run vops hr h0
  rw [ipv4Program_dynamic cfg _ _ (v4_sane_of_none h0) (by
    intro v hv
    have := payload_bound UdpOp.payload? uops h1 v hv
    rw [this] at hsize
    (have := cfg.width; omega))]
  unfold ipv4Abs
  rw [need_dynamic (by omega), Outcome.ok_bind, r1, Outcome.ok_bind,
    udp_inner_abs cfg uops r2 (fields_with vops 17#8 r3), udp_run uops h1, Outcome.ok_bind]
  have hseal : UdpState.seal cfg (ipv4Header (V4Op.asked vops 17#8) 0#16 0#16) ⟨last UdpOp.source? 0 uops,
      last UdpOp.destination? 0 uops, (uops.filterMap UdpOp.payload?).getLast?⟩ =
      .ok (udpDatagram (last V4Op.source? .zero vops).octets (last V4Op.destination? .zero vops).octets
        (last UdpOp.source? 0 uops) (last UdpOp.destination? 0 uops) (last UdpOp.payload? [] uops)) := by
    unfold UdpState.seal
    simp only []
    change (Udp.checksumOf cfg (.v4 _) (udpHeader _ _
      (BitVec.ofNat 16 (8 + (last UdpOp.payload? [] uops).length)) 0#16 ++ last UdpOp.payload? [] uops) >>=
        fun ck => Outcome.ok (udpHeader _ _ (BitVec.ofNat 16 (8 + (last UdpOp.payload? [] uops).length)) ck ++
          last UdpOp.payload? [] uops)) = _
    unfold udpDatagram
    rw [if_neg hsum]
    have hip := (asked_ok vops 17#8).length 0#16 0#16
    have hl : ∀ ck q, (udpHeader (last UdpOp.source? 0 uops) (last UdpOp.destination? 0 uops) ck 0#16 ++ q).length =
        8 + q.length := by
      intro ck q; rw [List.length_append]; rfl
    have hck := C06_udp_checksum_rfc cfg (ipv4Header (V4Op.asked vops 17#8) 0#16 0#16)
      (udpHeader (last UdpOp.source? 0 uops) (last UdpOp.destination? 0 uops)
        (BitVec.ofNat 16 (8 + (last UdpOp.payload? [] uops).length)) 0#16 ++ last UdpOp.payload? [] uops)
      (by omega) (by rw [hl]; omega) (by rw [hl]; rcases hodd with h | h
                                         · left; omega
                                         · exact .inr h)
    rw [hck, Outcome.ok_bind]
    have hm : udpMessage (ipv4Header (V4Op.asked vops 17#8) 0#16 0#16)
        (udpHeader (last UdpOp.source? 0 uops) (last UdpOp.destination? 0 uops)
          (BitVec.ofNat 16 (8 + (last UdpOp.payload? [] uops).length)) 0#16 ++ last UdpOp.payload? [] uops) =
        pseudoHeader (last V4Op.source? .zero vops).octets (last V4Op.destination? .zero vops).octets 17
          (8 + (last UdpOp.payload? [] uops).length) ++
        (udpHeader (last UdpOp.source? 0 uops) (last UdpOp.destination? 0 uops)
          (BitVec.ofNat 16 (8 + (last UdpOp.payload? [] uops).length)) 0 ++ last UdpOp.payload? [] uops) := by
      unfold udpMessage
      rw [(header_addresses vops 17#8).1, (header_addresses vops 17#8).2, hl]
      rfl
    rw [hm]
    rfl
  rw [hseal, Outcome.ok_bind, sealV4_packet cfg (asked_ok _ _)]
  rfl

/-- A concrete case that meets the hypotheses. -/
example (cfg : Cfg) := C102_udp_bytes cfg Sample.vops Sample.uops (by call_by_call) (by call_by_call)
    (by call_by_call) (by call_by_call) (.inl (by decide)) (by call_by_call)

/-- C102, TCP in IPv4.  Not part of the claim: orders in which a header setter follows `flags()` (C47, C81), and odd
payload lengths on a recent `std` (C60). -/
theorem C102_tcp_bytes (cfg : Cfg) (vops : List V4Op) (tops : List TcpOp) (hr : ∀ op ∈ vops, op.InRange)
    (h0 : vops.filterMap V4Op.payload? = []) (h1 : (tops.filterMap TcpOp.payload?).length ≤ 1)
    (hfl : TcpOp.FlagsLast tops) (hsize : 40 + (last TcpOp.payload? [] tops).length ≤ 65535)
    (hodd : (last TcpOp.payload? [] tops).length % 2 = 0 ∨ cfg.eofAdvances = false) :
    ipv4Program cfg Dynamic.new vops (.tcp tops) = .ok (ipv4Packet (V4Op.asked vops 6)
      (tcpSegment (last V4Op.source? .zero vops).octets (last V4Op.destination? .zero vops).octets
        (TcpOp.asked tops) (last TcpOp.flags? .empty tops).bits (last TcpOp.payload? [] tops))) := by
  obtain ⟨a, r1, r2, r3⟩ := v4_asked_run vops hr h0
  rw [ipv4Program_dynamic cfg _ _ (v4_sane_of_none h0) (by
    intro v hv
    have := payload_bound TcpOp.payload? tops h1 v hv
    rw [this] at hsize
    (have := cfg.width; omega))]
  unfold ipv4Abs
  rw [need_dynamic (by omega), Outcome.ok_bind, r1, Outcome.ok_bind,
    tcp_inner_abs cfg tops r2 (fields_with vops 6#8 r3), tcp_run tops hfl h1, Outcome.ok_bind]
  have hseal : TcpState.seal cfg (ipv4Header (V4Op.asked vops 6#8) 0#16 0#16) ⟨TcpOp.asked tops,
      (tops.filterMap TcpOp.flags?).getLast?, (tops.filterMap TcpOp.payload?).getLast?⟩ =
      .ok (tcpSegment (last V4Op.source? .zero vops).octets (last V4Op.destination? .zero vops).octets
        (TcpOp.asked tops) (last TcpOp.flags? .empty tops).bits (last TcpOp.payload? [] tops)) := by
    unfold TcpState.seal
    rw [flagBits_last]
    simp only []
    generalize TcpOp.asked tops = tf
    generalize (last TcpOp.flags? .empty tops).bits = g
    change (Tcp.checksumOf cfg (.v4 _) (tcpHeader _ _ 0#16 ++ last TcpOp.payload? [] tops) >>=
        fun ck => Outcome.ok (tcpHeader _ _ ck ++ last TcpOp.payload? [] tops)) = _
    have hip := (asked_ok vops 6#8).length 0#16 0#16
    have hl : (tcpHeader tf (0x5000#16 ||| g) 0#16 ++ last TcpOp.payload? [] tops).length =
        20 + (last TcpOp.payload? [] tops).length := by
      rw [List.length_append, tcpHeader_length]
    have hck := C07_tcp_checksum_rfc cfg (ipv4Header (V4Op.asked vops 6#8) 0#16 0#16)
      (tcpHeader tf (0x5000#16 ||| g) 0#16 ++ last TcpOp.payload? [] tops)
      (by omega) (by rw [hl]; omega) (by rw [hl]; omega) (by rw [hl]; rcases hodd with h | h
                                                             · left; omega
                                                             · exact .inr h)
    rw [hck, Outcome.ok_bind]
    have hm : tcpMessage (ipv4Header (V4Op.asked vops 6#8) 0#16 0#16)
        (tcpHeader tf (0x5000#16 ||| g) 0#16 ++ last TcpOp.payload? [] tops) =
        pseudoHeader (last V4Op.source? .zero vops).octets (last V4Op.destination? .zero vops).octets 6
          (20 + (last TcpOp.payload? [] tops).length) ++
        (tcpHeader tf (0x5000 ||| g) 0 ++ last TcpOp.payload? [] tops) := by
      unfold tcpMessage
      rw [(header_addresses vops 6#8).1, (header_addresses vops 6#8).2, hl]
      rfl
    rw [hm]
    rfl
  have hs2 : TcpState.seal cfg (ipv4Header (V4Op.asked vops 6#8) 0#16 0#16) ⟨⟨last TcpOp.source? 0 tops,
      last TcpOp.destination? 0 tops, last TcpOp.sequence? 0 tops, last TcpOp.acknowledgment? 0 tops,
      last TcpOp.window? 0 tops, last TcpOp.pointer? 0 tops⟩,
      (tops.filterMap TcpOp.flags?).getLast?, (tops.filterMap TcpOp.payload?).getLast?⟩ = _ := hseal
  rw [hs2, Outcome.ok_bind, sealV4_packet cfg (asked_ok _ _)]
  rfl

/-- A concrete case that meets the hypotheses. -/
example (cfg : Cfg) := C102_tcp_bytes cfg Sample.vops Sample.tops (by call_by_call) (by call_by_call)
    (by call_by_call) (by call_by_call) (by call_by_call) (.inl (by decide))

theorem words_nonzero : ∀ m : Bytes, (∃ x ∈ m, x ≠ 0#8) → ∃ w ∈ words m, w ≠ 0
  | [], h => by obtain ⟨x, hx, -⟩ := h; cases hx
  | [a], h => by
    obtain ⟨x, hx, h⟩ := h
    simp only [List.mem_singleton] at hx
    subst hx
    refine ⟨x.toNat * 256, by simp [words], ?_⟩
    intro hz
    exact h (BitVec.eq_of_toNat_eq (by rw [BitVec.toNat_ofNat]; omega))
  | a :: b :: rest, h => by
    obtain ⟨x, hx, h⟩ := h
    simp only [List.mem_cons] at hx
    by_cases h0 : a.toNat * 256 + b.toNat = 0
    · have ha : a = 0#8 := BitVec.eq_of_toNat_eq (by rw [BitVec.toNat_ofNat]; omega)
      have hb : b = 0#8 := BitVec.eq_of_toNat_eq (by rw [BitVec.toNat_ofNat]; omega)
      obtain ⟨w, hw, hn⟩ := words_nonzero rest ⟨x, by
        rcases hx with hx | hx | hx
        · exact absurd (hx.trans ha) h
        · exact absurd (hx.trans hb) h
        · exact hx, h⟩
      exact ⟨w, by simp [words, hw], hn⟩
    · exact ⟨_, by simp [words], h0⟩

/-- C102, ICMP echo.  Not part of the claim: odd payload lengths and the message of zeros only (C65). -/
theorem C102_echo_bytes (cfg : Cfg) (ops : List EchoOp) (kind : IcmpKind)
    (hk : (ops.filterMap EchoOp.kind?).getLast? = some kind)
    (h1 : (ops.filterMap EchoOp.payload?).length ≤ 1) (hs : (last EchoOp.payload? [] ops).length ≤ cfg.usizeMod / 4)
    (heven : (last EchoOp.payload? [] ops).length % 2 = 0)
    (hnz : kind = .echoRequest ∨ last EchoOp.identifier? 0 ops ≠ 0 ∨ last EchoOp.sequence? 0 ops ≠ 0 ∨
      ∃ x ∈ last EchoOp.payload? [] ops, x ≠ 0) :
    icmpProgram cfg Dynamic.new (.echo ops) = .ok (icmpEcho kind.toWire (last EchoOp.identifier? 0 ops)
      (last EchoOp.sequence? 0 ops) (last EchoOp.payload? [] ops)) := by
  rw [icmpProgram_dynamic cfg (.echo ops) (by
    intro v hv
    have := payload_bound EchoOp.payload? ops h1 v hv
    rw [this] at hs
    exact hs)]
  simp only [IcmpInner.abs]
  rw [need_dynamic (by omega), Outcome.ok_bind, echo_run ops h1, Outcome.ok_bind, hk]
  simp only [Option.map_some, Option.isSome_some, if_true]
  change (Icmp.checksumOf cfg (icmpEchoHeader _ 0#16 _ _ ++ last EchoOp.payload? [] ops) >>=
    fun ck => Outcome.ok (icmpEchoHeader _ ck _ _ ++ last EchoOp.payload? [] ops)) = _
  generalize last EchoOp.payload? [] ops = q at *
  generalize last EchoOp.identifier? 0 ops = i at *
  generalize last EchoOp.sequence? 0 ops = n at *
  have hz : zeroed (icmpEchoHeader kind.toWire 0#16 i n ++ q) 2 = icmpEchoHeader kind.toWire 0#16 i n ++ q := rfl
  have hl : (icmpEchoHeader kind.toWire 0#16 i n ++ q).length = 8 + q.length := by rw [List.length_append]; rfl
  have hbe : ∀ v : U16, v ≠ 0 → ∃ x ∈ be16 v, x ≠ 0#8 := by
    intro v hv
    rcases Classical.em (∃ x ∈ be16 v, x ≠ 0#8) with h | h
    · exact h
    · exfalso
      apply hv
      have e : ∀ x ∈ be16 v, x = 0#8 := fun x hx => Classical.byContradiction fun hn => h ⟨x, hx, hn⟩
      have := fromBe16_be16 v
      unfold be16 at e
      rw [e (BitVec.ofNat 8 (v.toNat / 256)) List.mem_cons_self,
        e (BitVec.ofNat 8 v.toNat) (List.mem_cons_of_mem _ List.mem_cons_self)] at this
      exact this.symm
  have hck := C05_icmp_checksum_rfc cfg (icmpEchoHeader kind.toWire 0#16 i n ++ q) (by omega) (by omega) (by
    rw [hz]
    apply words_nonzero
    rcases hnz with rfl | h | h | h
    · exact ⟨8#8, by unfold icmpEchoHeader; simp [IcmpKind.toWire], by decide⟩
    · obtain ⟨x, hx, hn⟩ := hbe i h
      exact ⟨x, by unfold icmpEchoHeader; simp [hx], hn⟩
    · obtain ⟨x, hx, hn⟩ := hbe n h
      exact ⟨x, by unfold icmpEchoHeader; simp [hx], hn⟩
    · obtain ⟨x, hx, hn⟩ := h
      exact ⟨x, by simp [hx], hn⟩)
  rw [hz] at hck
  show (Icmp.checksumOf cfg (icmpEchoHeader kind.toWire 0#16 i n ++ q) >>=
    fun ck => Outcome.ok (icmpEchoHeader kind.toWire ck i n ++ q)) = _
  rw [hck]
  rfl

/-- A concrete case that meets the hypotheses. -/
example (cfg : Cfg) := C102_echo_bytes cfg Sample.echoOps _ rfl (by call_by_call) (by call_by_call) (by call_by_call)
    (.inl rfl)

/-- C102, ICMP timestamp. -/
theorem C102_timestamp_bytes (cfg : Cfg) (ops : List TimestampOp) (kind : IcmpKind)
    (hk : (ops.filterMap TimestampOp.kind?).getLast? = some kind) :
    icmpProgram cfg Dynamic.new (.timestamp ops) = .ok (icmpTimestampMessage kind.toWire
      (last TimestampOp.identifier? 0 ops) (last TimestampOp.sequence? 0 ops) (last TimestampOp.originate? 0 ops)
      (last TimestampOp.receive? 0 ops) (last TimestampOp.transmit? 0 ops)) := by
  rw [icmpProgram_dynamic cfg (.timestamp ops) (by intro v hv; cases hv)]
  simp only [IcmpInner.abs]
  rw [need_dynamic (by omega), Outcome.ok_bind, timestamp_run ops, Outcome.ok_bind, hk]
  simp only [Option.map_some, Option.isSome_some, if_true]
  have hkind : kind = .timestampRequest ∨ kind = .timestampReply := by
    have := List.mem_of_getLast? hk
    obtain ⟨op, -, h⟩ := List.mem_filterMap.1 this
    cases op <;> simp [TimestampOp.kind?] at h <;> simp [← h]
  change (Icmp.checksumOf cfg (icmpTimestamp _ 0#16 _ _ _ _ _) >>=
    fun ck => Outcome.ok (icmpTimestamp _ ck _ _ _ _ _)) = _
  generalize last TimestampOp.identifier? 0 ops = i
  generalize last TimestampOp.sequence? 0 ops = n
  generalize last TimestampOp.originate? 0 ops = o
  generalize last TimestampOp.receive? 0 ops = r
  generalize last TimestampOp.transmit? 0 ops = t
  have hz : zeroed (icmpTimestamp kind.toWire 0#16 i n o r t) 2 = icmpTimestamp kind.toWire 0#16 i n o r t := rfl
  have hl : (icmpTimestamp kind.toWire 0#16 i n o r t).length = 20 := rfl
  have hck := C05_icmp_checksum_rfc cfg (icmpTimestamp kind.toWire 0#16 i n o r t) (by omega) (by omega) (by
    rw [hz]
    apply words_nonzero
    refine ⟨kind.toWire, by unfold icmpTimestamp; simp, ?_⟩
    rcases hkind with rfl | rfl <;> decide)
  rw [hz] at hck
  show (Icmp.checksumOf cfg (icmpTimestamp kind.toWire 0#16 i n o r t) >>=
    fun ck => Outcome.ok (icmpTimestamp kind.toWire ck i n o r t)) = _
  rw [hck]
  rfl

/-- A concrete case that meets the hypotheses. -/
example (cfg : Cfg) := C102_timestamp_bytes cfg Sample.timestampOps _ rfl

/-- C102, ICMP information. -/
theorem C102_information_bytes (cfg : Cfg) (ops : List InformationOp) (kind : IcmpKind)
    (hk : (ops.filterMap InformationOp.kind?).getLast? = some kind) :
    icmpProgram cfg Dynamic.new (.information ops) = .ok (icmpEcho kind.toWire (last InformationOp.identifier? 0 ops)
      (last InformationOp.sequence? 0 ops) []) := by
  rw [icmpProgram_dynamic cfg (.information ops) (by intro v hv; cases hv)]
  simp only [IcmpInner.abs]
  rw [need_dynamic (by omega), Outcome.ok_bind, information_run ops, Outcome.ok_bind, hk]
  simp only [Option.map_some, Option.isSome_some, if_true]
  have hkind : kind = .informationRequest ∨ kind = .informationReply := by
    have := List.mem_of_getLast? hk
    obtain ⟨op, -, h⟩ := List.mem_filterMap.1 this
    cases op <;> simp [InformationOp.kind?] at h <;> simp [← h]
  change (Icmp.checksumOf cfg (icmpEchoHeader _ 0#16 _ _) >>= fun ck => Outcome.ok (icmpEchoHeader _ ck _ _)) = _
  generalize last InformationOp.identifier? 0 ops = i
  generalize last InformationOp.sequence? 0 ops = n
  have hz : zeroed (icmpEchoHeader kind.toWire 0#16 i n) 2 = icmpEchoHeader kind.toWire 0#16 i n := rfl
  have hl : (icmpEchoHeader kind.toWire 0#16 i n).length = 8 := rfl
  have hck := C05_icmp_checksum_rfc cfg (icmpEchoHeader kind.toWire 0#16 i n) (by omega) (by omega) (by
    rw [hz]
    apply words_nonzero
    refine ⟨kind.toWire, by unfold icmpEchoHeader; simp, ?_⟩
    rcases hkind with rfl | rfl <;> decide)
  rw [hz] at hck
  show (Icmp.checksumOf cfg (icmpEchoHeader kind.toWire 0#16 i n) >>=
    fun ck => Outcome.ok (icmpEchoHeader kind.toWire ck i n)) = _
  rw [hck]
  unfold icmpEcho
  rw [List.append_nil, List.append_nil]
  rfl

/-- A concrete case that meets the hypotheses. -/
example (cfg : Cfg) := C102_information_bytes cfg Sample.informationOps _ rfl

/-- C102, ICMP in IPv4: the packet around whatever message the ICMP program builds alone. -/
theorem C102_icmp_in_ipv4 (cfg : Cfg) (vops : List V4Op) (inner : IcmpInner) (d : Bytes)
    (hr : ∀ op ∈ vops, op.InRange) (h0 : vops.filterMap V4Op.payload? = []) (hs : (Inner.icmp inner).Sane cfg)
    (hd : icmpProgram cfg Dynamic.new inner = .ok d) :
    ipv4Program cfg Dynamic.new vops (.icmp inner) = .ok (ipv4Packet (V4Op.asked vops 1) d) := by
  obtain ⟨a, r1, r2, r3⟩ := v4_asked_run vops hr h0
  rw [icmpProgram_dynamic cfg inner hs] at hd
  rw [ipv4Program_dynamic cfg _ _ (v4_sane_of_none h0) hs]
  unfold ipv4Abs
  rw [need_dynamic (by omega), Outcome.ok_bind, r1, Outcome.ok_bind,
    icmp_inner_abs cfg inner r2 (fields_with vops 1#8 r3), icmp_abs_at cfg inner (by omega), hd, Outcome.ok_bind,
    sealV4_packet cfg (asked_ok _ _)]
  rfl

/-- A concrete case that meets the hypotheses. -/
example (cfg : Cfg) := C102_icmp_in_ipv4 cfg Sample.vops (.echo Sample.echoOps) Sample.echo (by call_by_call)
    (by call_by_call) (by call_by_call) (by in_every_build)

/-- C102, IPv4 in Ethernet: the frame around whatever packet the IPv4 program builds alone, with an inner protocol
or without a raw payload. -/
theorem C102_frame_bytes (cfg : Cfg) (eops : List EtherOp) (vops : List V4Op) (inner : Inner) (out : Bytes)
    (he : eops.filterMap EtherOp.payload? = []) (h0 : vops.filterMap V4Op.payload? = []) (hi : inner.Sane cfg)
    (hout : ipv4Program cfg Dynamic.new vops inner = .ok out) :
    ethernetProgram cfg Dynamic.new eops vops inner =
      .ok (ethernetFrame (last EtherOp.destination? .zero eops).octets (last EtherOp.source? .zero eops).octets 0x0800
        out) := by
  have := C49_stack_compose cfg eops vops inner he (v4_sane_of_none h0) hi (by
    intro _ v hv
    rw [h0] at hv
    cases hv)
  rw [hout] at this
  obtain ⟨frame, h1, h2⟩ := this
  rw [h1, h2.bytes]
  rfl

/-- The hypotheses of C102 are met by ordinary programs. -/
example : (∀ op ∈ [V4Op.dscp 46, .id 7, .ttl 64, .source ⟨10, 0, 0, 1⟩, .destination ⟨10, 0, 0, 2⟩, .ttl 63], op.InRange) ∧
    [V4Op.dscp 46, .id 7, .ttl 64, .source ⟨10, 0, 0, 1⟩, .destination ⟨10, 0, 0, 2⟩, .ttl 63].filterMap
      V4Op.payload? = [] ∧
    udpSum (Ipv4Addr.mk 10 0 0 1).octets (Ipv4Addr.mk 10 0 0 2).octets 1 2 [7, 8] ≠ 0 ∧
    ipv4Packet (V4Op.asked [V4Op.dscp 46, .id 7, .ttl 64, .source ⟨10, 0, 0, 1⟩, .destination ⟨10, 0, 0, 2⟩, .ttl 63] 17)
        (udpDatagram (Ipv4Addr.mk 10 0 0 1).octets (Ipv4Addr.mk 10 0 0 2).octets 1 2 [7, 8]) =
      [69, 184, 0, 30, 0, 7, 0, 0, 63, 17, 103, 14, 10, 0, 0, 1, 10, 0, 0, 2, 0, 1, 0, 2, 0, 10, 228, 204, 7, 8] := by
  refine ⟨?_, by decide +kernel, by decide +kernel, by decide +kernel⟩
  intro op hop
  simp only [List.mem_cons, List.not_mem_nil, or_false] at hop
  rcases hop with rfl | rfl | rfl | rfl | rfl | rfl <;> first | trivial | (show _ ≤ _; decide)

end Verif.Props

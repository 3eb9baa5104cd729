import Verif.Props.BuildersSlice
import Verif.Samples

/-! # C58: the view of a packet under construction -/

namespace Verif.Props
open Verif Verif.Spec

theorem view_data {cap : Nat} {b : Dynamic} {pre layer : Bytes} (cfg : Cfg)
    (h : LawfulBuffer.Rep cfg cap b pre layer) : Buffer.data cfg b = .ok layer := LawfulBuffer.data cfg h

/-- C58, Ethernet: after any calls with at most one payload, `as_packet()` shows the last value given for
every field and the payload. -/
theorem C58_ether_view (cfg : Cfg) (ops : List EtherOp) (hs : ∀ op ∈ ops, op.Sane cfg)
    (h1 : (ops.filterMap EtherOp.payload?).length ≤ 1) :
    ∃ s d, (EtherBuilder.«with» cfg Dynamic.new >>= runOps (EtherOp.run cfg) ops) = .ok s ∧
      s.asPacket cfg = .ok d ∧
      Ether.destination d = .ok (last EtherOp.destination? .zero ops) ∧
      Ether.source d = .ok (last EtherOp.source? .zero ops) ∧
      Ether.protocol d = .ok (.ofWire (last EtherOp.protocol? (.unknown 0) ops).toWire) ∧
      Ether.payload d = .ok (last EtherOp.payload? [] ops) := by
  have h0 := ether_with_total (B := Dynamic) cfg Dynamic.rep_new (fine_dynamic (by simp))
  have h2 := h0.run _ (fun op a s hr hl => ether_abs cfg op a s hr hl) ops (ether_sane_room (by simp) hs)
  rw [need_dynamic (by simp), Outcome.ok_bind, Outcome.ok_bind, ether_run ops h1] at h2
  obtain ⟨s, e, r⟩ := h2
  have hv := ether_view (last EtherOp.destination? .zero ops) (last EtherOp.source? .zero ops)
    (last EtherOp.protocol? (.unknown 0) ops).toWire (last EtherOp.payload? [] ops)
  refine ⟨s, _, e, ?_, hv.2.1, hv.2.2.1, hv.2.2.2.1, hv.2.2.2.2⟩
  unfold EtherBuilder.asPacket
  rw [view_data cfg r.rep, Outcome.ok_bind]
  exact hv.1

/-- A concrete case that meets the hypotheses. -/
example (cfg : Cfg) := C58_ether_view cfg Sample.eops (by call_by_call) (by call_by_call)

/-- C58, IPv4: after any calls with values in range and at most one payload,
`as_packet()` shows the last value given for every header field.  Not part of this claim: the payload, which the view does
not show before `build()` because the total length is still zero, see the last conjunct; and the fields that
the `ecn`, `flags` and `offset` setters disturb. -/
theorem C58_v4_view (cfg : Cfg) (ops : List V4Op) (hs : ∀ op ∈ ops, op.Sane cfg)
    (hr : ∀ op ∈ ops, op.InRange) (h1 : (ops.filterMap V4Op.payload?).length ≤ 1) :
    ∃ s d, (V4Builder.«with» cfg Dynamic.new >>= runOps (V4Op.run cfg) ops) = .ok s ∧
      s.asPacket cfg = .ok d ∧
      V4.version d = .ok 4 ∧ V4.ihl d = .ok 5 ∧
      V4.id d = .ok (last V4Op.id? 0 ops) ∧
      V4.ttl d = .ok (last V4Op.ttl? 0 ops) ∧
      V4.protocol d = .ok (.ofWire (last V4Op.protocol? (.ofWire 0) ops).toWire) ∧
      V4.source d = .ok (last V4Op.source? .zero ops) ∧
      V4.destination d = .ok (last V4Op.destination? .zero ops) ∧
      ((∀ op ∈ ops, op.Tame) → V4.dscp d = .ok (last V4Op.dscp? 0 ops)) ∧
      V4.length d = .ok 0 ∧ V4.payload d = .ok [] := by
  have h0 := v4_with_total (B := Dynamic) cfg Dynamic.rep_new (fine_dynamic (by simp))
  have h2 := h0.run _ (fun op a s hr hl => v4_abs cfg op a s hr hl) ops (v4_sane_room (by simp) hs)
  obtain ⟨f, ha, hrun⟩ := v4_run ops hr h1
  rw [need_dynamic (by simp), Outcome.ok_bind, Outcome.ok_bind, hrun] at h2
  obtain ⟨s, e, r⟩ := h2
  have hv := v4_view f _ _ ha.src ha.dst 0#16 0#16 (last V4Op.payload? [] ops)
  obtain ⟨v1, v2, v3, v4, v5, v6, v7, v8, v9, v10, v11, v12, v13⟩ := hv
  refine ⟨s, _, e, ?_, v1, v2, ?_, ?_, ?_, v10, v11, ?_, v5, ?_⟩
  · unfold V4Builder.asPacket
    rw [view_data cfg r.rep, Outcome.ok_bind]
    exact v4_accepted ha.ok 0#16 0#16 _ (by simp)
  · rw [v6, ha.id]
  · rw [v7, ha.ttl]
  · rw [v8, ha.protocol]
  · intro ht
    rw [v3, ha.tos ht, shl2_shr2]
    rcases last_mem V4Op.dscp? 0 ops with h | ⟨op, hop, h⟩
    · rw [h]; decide
    · have := hr op hop
      cases op <;> try cases h
      exact this
  · have hl := ha.ok.length 0#16 0#16
    rw [V4.payload_eq (by rw [List.length_append]; omega)
      (by rw [ipv4Header_ihl, List.length_append]; omega), ipv4Header_ihl, v4_total]
    rfl

/-- A concrete case that meets the hypotheses. -/
example (cfg : Cfg) := C58_v4_view cfg [.ttl 64, .id 7, .payload [1, 2, 3]] (by call_by_call) (by call_by_call)
    (by call_by_call)

/-- C58, UDP: ports.  Not part of this claim: the payload, which the view does not show before
`build()` because the length field is still zero, see the last conjunct. -/
theorem C58_udp_view (cfg : Cfg) (ops : List UdpOp) (hs : (Inner.udp ops).Sane cfg)
    (h1 : (ops.filterMap UdpOp.payload?).length ≤ 1) :
    ∃ s d, (UdpBuilder.«with» cfg Dynamic.new >>= runOps (UdpOp.run cfg) ops) = .ok s ∧
      s.asPacket cfg = .ok d ∧
      Udp.source d = .ok (last UdpOp.source? 0 ops) ∧
      Udp.destination d = .ok (last UdpOp.destination? 0 ops) ∧
      Udp.length d = .ok 0 ∧ Udp.payload d = .ok [] := by
  have h0 := udp_with_total (B := Dynamic) cfg Dynamic.rep_new (fine_dynamic (by simp))
  have hroom : ∀ op ∈ ops, op.room Dynamic cfg.isizeMax ([] ++ [] : Bytes).length := by
    intro op hop
    cases op with
    | payload v => exact room_dynamic (by simp) (hs v (List.mem_filterMap.2 ⟨_, hop, rfl⟩))
    | _ => trivial
  have h2 := h0.run _ (fun op a s hr hl => udp_abs cfg op a s hr hl) ops hroom
  rw [need_dynamic (by simp), Outcome.ok_bind, Outcome.ok_bind, udp_run ops h1] at h2
  obtain ⟨s, e, r⟩ := h2
  have hv := udp_view (last UdpOp.source? 0 ops) (last UdpOp.destination? 0 ops) 0#16 0#16
    (last UdpOp.payload? [] ops)
  refine ⟨s, _, e, ?_, hv.1, hv.2.1, hv.2.2.1, ?_⟩
  · unfold UdpBuilder.asPacket
    rw [view_data cfg r.rep, Outcome.ok_bind]
    exact hv.2.2.2.2.1 (by simp)
  · have hl : (udpHeader (last UdpOp.source? 0 ops) (last UdpOp.destination? 0 ops) 0#16 0#16 ++
        last UdpOp.payload? [] ops).length = 8 + (last UdpOp.payload? [] ops).length := by
      simp [udpHeader, be16]; omega
    have hf := Udp.length_field (b := udpHeader (last UdpOp.source? 0 ops) (last UdpOp.destination? 0 ops)
      0#16 0#16 ++ last UdpOp.payload? [] ops) (by omega)
    rw [hv.2.2.1] at hf
    injection hf with hf
    have h2 := congrArg BitVec.toNat hf
    rw [ofNat_field_toNat _ 32 16] at h2
    unfold Udp.payload
    rw [Udp.split_eq (by omega), ← h2]
    rfl

/-- A concrete case that meets the hypotheses. -/
example (cfg : Cfg) := C58_udp_view cfg Sample.uops (by call_by_call) (by call_by_call)

theorem tcp_dyn_room {cfg : Cfg} {ops : List TcpOp} (hs : (Inner.tcp ops).Sane cfg) :
    ∀ op ∈ ops, op.room Dynamic cfg.isizeMax ([] ++ [] : Bytes).length := by
  intro op hop
  cases op with
  | payload v => exact room_dynamic (by simp) (hs v (List.mem_filterMap.2 ⟨_, hop, rfl⟩))
  | _ => trivial

theorem flagsLast_of_none : ∀ ops : List TcpOp, ops.filterMap TcpOp.flags? = [] → TcpOp.FlagsLast ops := by
  intro ops
  induction ops with
  | nil => intro _; trivial
  | cons o os ih =>
    intro h
    cases o with
    | flags v => cases h
    | _ => exact ih h

/-- C82 is false of the code: for every history of IPv4 or UDP calls with a non-empty payload the in-progress
view shows no payload. -/
theorem C82_v4_udp_view_refuted (cfg : Cfg) :
    (∀ (ops : List V4Op) (v : Bytes), (∀ op ∈ ops, op.Sane cfg) → (∀ op ∈ ops, op.InRange) →
      ops.filterMap V4Op.payload? = [v] → v ≠ [] →
      ∃ s d, (V4Builder.«with» cfg Dynamic.new >>= runOps (V4Op.run cfg) ops) = .ok s ∧
        s.asPacket cfg = .ok d ∧ V4.payload d ≠ .ok v) ∧
    (∀ (ops : List UdpOp) (v : Bytes), (Inner.udp ops).Sane cfg → ops.filterMap UdpOp.payload? = [v] → v ≠ [] →
      ∃ s d, (UdpBuilder.«with» cfg Dynamic.new >>= runOps (UdpOp.run cfg) ops) = .ok s ∧
        s.asPacket cfg = .ok d ∧ Udp.payload d ≠ .ok v) := by
  refine ⟨fun ops v hs hr h1 hv => ?_, fun ops v hs h1 hv => ?_⟩
  · obtain ⟨s, d, e1, e2, -, -, -, -, -, -, -, -, -, e3⟩ := C58_v4_view cfg ops hs hr (by rw [h1]; exact Nat.le_refl _)
    exact ⟨s, d, e1, e2, fun h => hv (by rw [e3] at h; injection h with h; exact h.symm)⟩
  · obtain ⟨s, d, e1, e2, -, -, -, e3⟩ := C58_udp_view cfg ops hs (by rw [h1]; exact Nat.le_refl _)
    exact ⟨s, d, e1, e2, fun h => hv (by rw [e3] at h; injection h with h; exact h.symm)⟩

/-- C58, TCP: before `flags()` is called `as_packet()` shows every value given and the
payload. -/
theorem C58_tcp_view (cfg : Cfg) (ops : List TcpOp) (hs : (Inner.tcp ops).Sane cfg)
    (hf : ops.filterMap TcpOp.flags? = []) (h1 : (ops.filterMap TcpOp.payload?).length ≤ 1) :
    ∃ s d, (TcpBuilder.«with» cfg Dynamic.new >>= runOps (TcpOp.run cfg) ops) = .ok s ∧
      s.asPacket cfg = .ok d ∧
      Tcp.source d = .ok (last TcpOp.source? 0 ops) ∧
      Tcp.destination d = .ok (last TcpOp.destination? 0 ops) ∧
      Tcp.sequence d = .ok (last TcpOp.sequence? 0 ops) ∧
      Tcp.acknowledgment d = .ok (last TcpOp.acknowledgment? 0 ops) ∧
      Tcp.window d = .ok (last TcpOp.window? 0 ops) ∧
      Tcp.pointer d = .ok (last TcpOp.pointer? 0 ops) ∧
      Tcp.flags d = .ok ⟨0#16, by decide⟩ ∧ Tcp.offset d = .ok 5 ∧
      Tcp.payload d = .ok (last TcpOp.payload? [] ops) := by
  have h0 := tcp_with_total (B := Dynamic) cfg Dynamic.rep_new (fine_dynamic (by simp))
  have h2 := h0.run _ (fun op a s hr hl => tcp_abs cfg op a s hr hl) ops (tcp_dyn_room hs)
  rw [need_dynamic (by simp), Outcome.ok_bind, Outcome.ok_bind,
    tcp_run ops (flagsLast_of_none ops hf) h1, hf] at h2
  obtain ⟨s, e, r⟩ := h2
  have hv := tcp_view ⟨last TcpOp.source? 0 ops, last TcpOp.destination? 0 ops,
        last TcpOp.sequence? 0 ops, last TcpOp.acknowledgment? 0 ops, last TcpOp.window? 0 ops,
        last TcpOp.pointer? 0 ops⟩ 0x5000#16 0#16 (last TcpOp.payload? [] ops)
  have hw := tcp_final_view ⟨last TcpOp.source? 0 ops, last TcpOp.destination? 0 ops,
        last TcpOp.sequence? 0 ops, last TcpOp.acknowledgment? 0 ops, last TcpOp.window? 0 ops,
        last TcpOp.pointer? 0 ops⟩ ⟨0#16, by decide⟩ 0#16 (last TcpOp.payload? [] ops)
  have e0 : (0x5000#16 ||| (⟨0#16, by decide⟩ : TcpFlags).bits) = 0x5000#16 := by decide
  rw [e0] at hw
  refine ⟨s, _, e, ?_, hv.1, hv.2.1, hv.2.2.1, hv.2.2.2.1, hv.2.2.2.2.1, hv.2.2.2.2.2.1, hw.2.2.1,
    hw.2.1, hw.2.2.2.1⟩
  unfold TcpBuilder.asPacket
  rw [view_data cfg r.rep, Outcome.ok_bind]
  exact hw.1

/-- A concrete case that meets the hypotheses. -/
example (cfg : Cfg) := C58_tcp_view cfg Sample.tops (by call_by_call) (by call_by_call) (by call_by_call)

/-- C82, TCP, the other half: once `flags()` has been called the view shows the values given, but the data
offset is zero and `payload()` is the whole segment, header included. -/
theorem C82_tcp_view_after_flags_refuted (cfg : Cfg) (ops : List TcpOp) (hs : (Inner.tcp ops).Sane cfg)
    (g : TcpFlags) (hg : (ops.filterMap TcpOp.flags?).getLast? = some g)
    (hf : TcpOp.FlagsLast ops) (h1 : (ops.filterMap TcpOp.payload?).length ≤ 1) :
    ∃ s d, (TcpBuilder.«with» cfg Dynamic.new >>= runOps (TcpOp.run cfg) ops) = .ok s ∧
      s.asPacket cfg = .ok d ∧
      Tcp.source d = .ok (last TcpOp.source? 0 ops) ∧
      Tcp.destination d = .ok (last TcpOp.destination? 0 ops) ∧
      Tcp.sequence d = .ok (last TcpOp.sequence? 0 ops) ∧
      Tcp.acknowledgment d = .ok (last TcpOp.acknowledgment? 0 ops) ∧
      Tcp.window d = .ok (last TcpOp.window? 0 ops) ∧
      Tcp.pointer d = .ok (last TcpOp.pointer? 0 ops) ∧
      Tcp.flags d = .ok g ∧ Tcp.offset d = .ok 0 ∧
      Tcp.payload d = .ok d ∧ d ≠ last TcpOp.payload? [] ops := by
  have h0 := tcp_with_total (B := Dynamic) cfg Dynamic.rep_new (fine_dynamic (by simp))
  have h2 := h0.run _ (fun op a s hr hl => tcp_abs cfg op a s hr hl) ops (tcp_dyn_room hs)
  rw [need_dynamic (by simp), Outcome.ok_bind, Outcome.ok_bind, tcp_run ops hf h1, hg] at h2
  obtain ⟨s, e, r⟩ := h2
  have hv := tcp_view ⟨last TcpOp.source? 0 ops, last TcpOp.destination? 0 ops,
        last TcpOp.sequence? 0 ops, last TcpOp.acknowledgment? 0 ops, last TcpOp.window? 0 ops,
        last TcpOp.pointer? 0 ops⟩ g.bits 0#16 (last TcpOp.payload? [] ops)
  have hw := tcp_offset_view ⟨last TcpOp.source? 0 ops, last TcpOp.destination? 0 ops,
        last TcpOp.sequence? 0 ops, last TcpOp.acknowledgment? 0 ops, last TcpOp.window? 0 ops,
        last TcpOp.pointer? 0 ops⟩ g.bits 0#16 (last TcpOp.payload? [] ops)
  have ho := tcpHeader_offset ⟨last TcpOp.source? 0 ops, last TcpOp.destination? 0 ops,
        last TcpOp.sequence? 0 ops, last TcpOp.acknowledgment? 0 ops, last TcpOp.window? 0 ops,
        last TcpOp.pointer? 0 ops⟩ g.bits 0#16 (last TcpOp.payload? [] ops)
  have hw' : Tcp.offset (tcpHeader ⟨last TcpOp.source? 0 ops, last TcpOp.destination? 0 ops,
        last TcpOp.sequence? 0 ops, last TcpOp.acknowledgment? 0 ops, last TcpOp.window? 0 ops,
        last TcpOp.pointer? 0 ops⟩ g.bits 0#16 ++ last TcpOp.payload? [] ops) = .ok 0 := by
    rw [hw, Nat.div_eq_of_lt (by have := g.lt; omega)]
    rfl
  rw [Nat.div_eq_of_lt (by have := g.lt; omega)] at ho
  have hl : (tcpHeader ⟨last TcpOp.source? 0 ops, last TcpOp.destination? 0 ops,
        last TcpOp.sequence? 0 ops, last TcpOp.acknowledgment? 0 ops, last TcpOp.window? 0 ops,
        last TcpOp.pointer? 0 ops⟩ g.bits 0#16 ++ last TcpOp.payload? [] ops).length =
      20 + (last TcpOp.payload? [] ops).length := by simp [tcpHeader_length]
  have hnew := (Tcp.new_ok_iff (b := tcpHeader ⟨last TcpOp.source? 0 ops, last TcpOp.destination? 0 ops,
        last TcpOp.sequence? 0 ops, last TcpOp.acknowledgment? 0 ops, last TcpOp.window? 0 ops,
        last TcpOp.pointer? 0 ops⟩ g.bits 0#16 ++ last TcpOp.payload? [] ops)).2 ⟨rfl, by omega, by omega⟩
  refine ⟨s, _, e, ?_, hv.1, hv.2.1, hv.2.2.1, hv.2.2.2.1, hv.2.2.2.2.1, hv.2.2.2.2.2.1,
    tcp_flags_view _ _ _ _ _ ?_, hw', ?_, ?_⟩
  · unfold TcpBuilder.asPacket
    rw [view_data cfg r.rep, Outcome.ok_bind]
    exact hnew
  · have h : ∀ n, n < 512 → BitVec.ofNat 16 n &&& 0b1_1111_1111#16 = BitVec.ofNat 16 n := by
      decide +kernel
    have := h g.bits.toNat g.lt
    rwa [BitVec.ofNat_toNat, BitVec.setWidth_eq] at this
  · unfold Tcp.payload
    rw [Tcp.split_eq (by omega) (by omega), ho]
    rfl
  · intro hc
    have := congrArg List.length hc
    omega

/-- A concrete case that meets the hypotheses. -/
example (cfg : Cfg) := C82_tcp_view_after_flags_refuted cfg [.source 80, .flags ⟨2, by decide⟩] (by call_by_call)
    ⟨2, by decide⟩ rfl (by call_by_call) (by call_by_call)

/-- C58, echo: `as_packet()` shows the last values given and the payload; a builder on which neither
`request()` nor `reply()` was called shows an echo reply. -/
theorem C58_echo_view (cfg : Cfg) (ops : List EchoOp) (hs : (Inner.icmp (.echo ops)).Sane cfg)
    (h1 : (ops.filterMap EchoOp.payload?).length ≤ 1) :
    ∃ s d, (EchoBuilder.«with» cfg Dynamic.new >>= runOps (EchoOp.run cfg) ops) = .ok s ∧
      s.asPacket cfg = .ok d ∧
      Icmp.kind d = .ok (last EchoOp.kind? .echoReply ops) ∧ Icmp.code d = .ok 0 ∧
      Echo.identifier d = .ok (last EchoOp.identifier? 0 ops) ∧
      Echo.sequence d = .ok (last EchoOp.sequence? 0 ops) ∧
      Echo.payload d = .ok (last EchoOp.payload? [] ops) := by
  have h0 := echo_with_total (B := Dynamic) cfg Dynamic.rep_new (fine_dynamic (by simp))
  have hroom : ∀ op ∈ ops, op.room Dynamic cfg.isizeMax ([] ++ [] : Bytes).length := by
    intro op hop
    cases op with
    | payload v => exact room_dynamic (by simp) (hs v (List.mem_filterMap.2 ⟨_, hop, rfl⟩))
    | _ => trivial
  have h2 := h0.run _ (fun op a s hr hl => echo_abs cfg op a s hr hl) ops hroom
  rw [need_dynamic (by simp), Outcome.ok_bind, Outcome.ok_bind, echo_run ops h1] at h2
  obtain ⟨s, e, r⟩ := h2
  have hk : ∃ k ∈ [IcmpKind.echoRequest, .echoReply], last EchoOp.kind? .echoReply ops = k ∧
      (((ops.filterMap EchoOp.kind?).getLast?).map IcmpKind.toWire).getD 0 = k.toWire := by
    unfold last
    cases hg : (ops.filterMap EchoOp.kind?).getLast? with
    | none => exact ⟨_, by simp, rfl, rfl⟩
    | some k =>
      obtain ⟨op, _, h⟩ := List.mem_filterMap.1 (List.mem_of_getLast? hg)
      cases op <;> cases h <;> exact ⟨_, by simp, rfl, rfl⟩
  obtain ⟨k, hk, e1, e2⟩ := hk
  have hv := echoHeader_view k.toWire 0#16 (last EchoOp.identifier? 0 ops) (last EchoOp.sequence? 0 ops)
    (last EchoOp.payload? [] ops)
  have hw : IcmpKind.ofWire k.toWire = k := by
    simp only [List.mem_cons, List.not_mem_nil, or_false] at hk
    rcases hk with rfl | rfl <;> rfl
  rw [hw] at hv
  refine ⟨s, _, e, ?_, by rw [e1]; exact hv.2.1, hv.2.2.1, hv.2.2.2.2.1, hv.2.2.2.2.2.1, hv.2.2.2.2.2.2⟩
  have hrep := r.rep
  simp only [EchoState.msg] at hrep
  rw [e2] at hrep
  unfold EchoBuilder.asPacket
  rw [view_data cfg hrep, Outcome.ok_bind]
  unfold Echo.new Icmp.typedNew Echo.headerMin
  rw [if_neg (by simp [icmpEchoHeader, be16])]
  exact if_pos (by show IcmpKind.ofWire k.toWire ∈ _; rw [hw]; exact hk)

/-- A concrete case that meets the hypotheses. -/
example (cfg : Cfg) := C58_echo_view cfg Sample.echoOps (by call_by_call) (by call_by_call)

/-- C58, timestamp: `as_packet()` shows the last values given, and is the documented error as long as
neither `request()` nor `reply()` was called. -/
theorem C58_timestamp_view (cfg : Cfg) (ops : List TimestampOp) :
    ∃ s, (TimestampBuilder.«with» cfg Dynamic.new >>= runOps (TimestampOp.run cfg) ops) = .ok s ∧
      ((ops.filterMap TimestampOp.kind?).getLast? = none → s.asPacket cfg = .err .invalidPacket) ∧
      (∀ k, (ops.filterMap TimestampOp.kind?).getLast? = some k → ∃ d, s.asPacket cfg = .ok d ∧
        Icmp.kind d = .ok k ∧ Icmp.code d = .ok 0 ∧
        Timestamp.identifier d = .ok (last TimestampOp.identifier? 0 ops) ∧
        Timestamp.sequence d = .ok (last TimestampOp.sequence? 0 ops) ∧
        Timestamp.originate d = .ok (last TimestampOp.originate? 0 ops) ∧
        Timestamp.receive d = .ok (last TimestampOp.receive? 0 ops) ∧
        Timestamp.transmit d = .ok (last TimestampOp.transmit? 0 ops)) := by
  have h0 := timestamp_with_total (B := Dynamic) cfg Dynamic.rep_new (fine_dynamic (by simp))
  have h2 := h0.run (abs := TimestampOp.abs) (fun _ => True)
    (fun op a s hr _ => timestamp_step cfg op a s hr) ops (fun _ _ => trivial)
  rw [need_dynamic (by simp), Outcome.ok_bind, Outcome.ok_bind, timestamp_run ops] at h2
  obtain ⟨s, e, r⟩ := h2
  refine ⟨s, e, ?_, ?_⟩
  · intro hn
    have hrep := r.rep
    simp only [TimestampState.msg] at hrep
    rw [hn] at hrep
    unfold TimestampBuilder.asPacket
    rw [view_data cfg hrep, Outcome.ok_bind]
    unfold Timestamp.new Icmp.typedNew Timestamp.headerMin
    rw [if_neg (by simp [icmpTimestamp, be16, be32])]
    rfl
  · intro k hg
    have hk : k ∈ [IcmpKind.timestampRequest, .timestampReply] := by
      obtain ⟨op, _, h⟩ := List.mem_filterMap.1 (List.mem_of_getLast? hg)
      cases op <;> cases h <;> simp
    have hw : IcmpKind.ofWire k.toWire = k := by
      simp only [List.mem_cons, List.not_mem_nil, or_false] at hk
      rcases hk with rfl | rfl <;> rfl
    have hv := timestamp_view k.toWire 0#16 (last TimestampOp.identifier? 0 ops)
      (last TimestampOp.sequence? 0 ops) (last TimestampOp.originate? 0 ops)
      (last TimestampOp.receive? 0 ops) (last TimestampOp.transmit? 0 ops)
    rw [hw] at hv
    have hrep := r.rep
    simp only [TimestampState.msg] at hrep
    rw [hg] at hrep
    refine ⟨_, ?_, hv.2.1, hv.2.2.1, hv.2.2.2.2.1, hv.2.2.2.2.2.1, hv.2.2.2.2.2.2.1, hv.2.2.2.2.2.2.2.1,
      hv.2.2.2.2.2.2.2.2⟩
    unfold TimestampBuilder.asPacket
    rw [view_data cfg hrep, Outcome.ok_bind]
    unfold Timestamp.new Icmp.typedNew Timestamp.headerMin
    rw [if_neg (by simp [icmpTimestamp, be16, be32])]
    exact if_pos (by show IcmpKind.ofWire k.toWire ∈ _; rw [hw]; exact hk)

/-- C58, information: as for the timestamp. -/
theorem C58_information_view (cfg : Cfg) (ops : List InformationOp) :
    ∃ s, (InformationBuilder.«with» cfg Dynamic.new >>= runOps (InformationOp.run cfg) ops) = .ok s ∧
      ((ops.filterMap InformationOp.kind?).getLast? = none → s.asPacket cfg = .err .invalidPacket) ∧
      (∀ k, (ops.filterMap InformationOp.kind?).getLast? = some k → ∃ d, s.asPacket cfg = .ok d ∧
        Icmp.kind d = .ok k ∧ Icmp.code d = .ok 0 ∧
        Information.identifier d = .ok (last InformationOp.identifier? 0 ops) ∧
        Information.sequence d = .ok (last InformationOp.sequence? 0 ops)) := by
  have h0 := information_with_total (B := Dynamic) cfg Dynamic.rep_new (fine_dynamic (by simp))
  have h2 := h0.run (abs := InformationOp.abs) (fun _ => True)
    (fun op a s hr _ => information_step cfg op a s hr) ops (fun _ _ => trivial)
  rw [need_dynamic (by simp), Outcome.ok_bind, Outcome.ok_bind, information_run ops] at h2
  obtain ⟨s, e, r⟩ := h2
  refine ⟨s, e, ?_, ?_⟩
  · intro hn
    have hrep := r.rep
    simp only [InformationState.msg] at hrep
    rw [hn] at hrep
    unfold InformationBuilder.asPacket
    rw [view_data cfg hrep, Outcome.ok_bind]
    unfold Information.new Icmp.typedNew Information.headerMin
    rw [if_neg (by simp [icmpEchoHeader, be16])]
    rfl
  · intro k hg
    have hk : k ∈ [IcmpKind.informationRequest, .informationReply] := by
      obtain ⟨op, _, h⟩ := List.mem_filterMap.1 (List.mem_of_getLast? hg)
      cases op <;> cases h <;> simp
    have hw : IcmpKind.ofWire k.toWire = k := by
      simp only [List.mem_cons, List.not_mem_nil, or_false] at hk
      rcases hk with rfl | rfl <;> rfl
    have hv := echoHeader_view k.toWire 0#16 (last InformationOp.identifier? 0 ops)
      (last InformationOp.sequence? 0 ops) []
    rw [hw, List.append_nil] at hv
    have hrep := r.rep
    simp only [InformationState.msg] at hrep
    rw [hg] at hrep
    refine ⟨_, ?_, hv.2.1, hv.2.2.1, hv.2.2.2.2.1, hv.2.2.2.2.2.1⟩
    unfold InformationBuilder.asPacket
    rw [view_data cfg hrep, Outcome.ok_bind]
    unfold Information.new Icmp.typedNew Information.headerMin
    rw [if_neg (by simp [icmpEchoHeader, be16])]
    exact if_pos (by show IcmpKind.ofWire k.toWire ∈ _; rw [hw]; exact hk)

/-- The hypotheses are met: a history with flags last and one payload. -/
example : TcpOp.FlagsLast [.source 1, .payload [1], .window 7, .flags ⟨2#16, by decide⟩] ∧
    ([TcpOp.source 1, .payload [1], .window 7, .flags ⟨2#16, by decide⟩].filterMap TcpOp.payload?).length ≤ 1 ∧
    ([TcpOp.source 1, .payload [1], .window 7, .flags ⟨2#16, by decide⟩].filterMap TcpOp.flags?).getLast? =
      some ⟨2#16, by decide⟩ :=
  ⟨(by intro op h; cases h), by decide, rfl⟩

end Verif.Props

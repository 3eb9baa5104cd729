import Verif.Props.BuildersPanics
import Verif.Samples

/-! # C53: packets too large for their length fields -/

namespace Verif.Props
open Verif Verif.Spec

theorem seal_length {cfg : Cfg} {f : Ipv4Fields} (hf : Ipv4Fields.ok f) {d out : Bytes}
    (h : sealV4 cfg f d = .ok out) :
    out.length = 20 + d.length ∧ V4.length out = .ok (BitVec.ofNat 16 out.length) := by
  unfold sealV4 at h
  obtain ⟨ck, -, h⟩ := bind_ok_inv h
  injection h with h
  have hl : out.length = 20 + d.length := by
    rw [← h, List.length_append, Ipv4Fields.ok.length hf]
  refine ⟨hl, ?_⟩
  obtain ⟨⟨s, hs⟩, ⟨t, ht⟩⟩ := hf
  rw [hl, ← h]
  exact (v4_view f s t hs ht _ ck d).2.2.2.2.1

theorem raw_length {cfg : Cfg} {a : V4State} (hf : Ipv4Fields.ok a.fields) {out : Bytes}
    (h : a.raw cfg = .ok out) :
    out.length = 20 + (a.payload.getD []).length ∧ V4.length out = .ok (BitVec.ofNat 16 out.length) := by
  obtain ⟨f, p⟩ := a
  cases p with
  | none =>
    rw [raw_eq_seal cfg hf none (by decide)] at h
    exact seal_length hf h
  | some p =>
    obtain ⟨ck, e⟩ := raw_shape cfg hf p
    rw [e] at h
    injection h with h
    obtain ⟨⟨s, hs⟩, ⟨t, ht⟩⟩ := hf
    have hs : f.src = s.octets := hs
    have ht : f.dst = t.octets := ht
    have hl : out.length = 20 + p.length := by rw [← h, hs, ht]; simp [be16, Ipv4Addr.octets]; omega
    refine ⟨hl, ?_⟩
    rw [hl]
    exact readU16At_be16 (by omega) (by rw [← h]; rfl)

/-- C74, what does hold: whatever calls were made, the total length field of a built IPv4 packet is its
length modulo 65536, so it is right for every packet that fits. -/
theorem C74_length_field (cfg : Cfg) (vops : List V4Op) (inner : Inner)
    (hv : ∀ op ∈ vops, op.Sane cfg) (hi : inner.Sane cfg) (out : Bytes)
    (h : ipv4Program cfg Dynamic.new vops inner = .ok out) :
    ∃ l, V4.length out = .ok l ∧ l.toNat = out.length % 65536 ∧
      (out.length ≤ 65535 ↔ l.toNat = out.length) := by
  have key : V4.length out = .ok (BitVec.ofNat 16 out.length) := by
    rw [ipv4Program_dynamic cfg vops inner hv hi] at h
    unfold ipv4Abs at h
    rw [need_dynamic (by omega), Outcome.ok_bind] at h
    rcases v4_never vops .init ⟨⟨.zero, rfl⟩, ⟨.zero, rfl⟩⟩ with ⟨a, ha, hok⟩ | ⟨e, he⟩
    · rw [ha, Outcome.ok_bind] at h
      cases inner with
      | plain => exact (raw_length hok h).2
      | udp ops =>
        simp only [Inner.abs] at h
        split at h
        · cases h
        · obtain ⟨-, -, h⟩ := bind_ok_inv h
          obtain ⟨u, -, h⟩ := bind_ok_inv h
          obtain ⟨d, -, h⟩ := bind_ok_inv h
          have hok' : Ipv4Fields.ok { a.fields with protocol := 17#8 } := hok
          exact (seal_length hok' h).2
      | tcp ops =>
        simp only [Inner.abs] at h
        split at h
        · cases h
        · obtain ⟨-, -, h⟩ := bind_ok_inv h
          obtain ⟨u, -, h⟩ := bind_ok_inv h
          obtain ⟨d, -, h⟩ := bind_ok_inv h
          have hok' : Ipv4Fields.ok { a.fields with protocol := 6#8 } := hok
          exact (seal_length hok' h).2
      | icmp inner =>
        simp only [Inner.abs] at h
        split at h
        · cases h
        · obtain ⟨d, -, h⟩ := bind_ok_inv h
          have hok' : Ipv4Fields.ok { a.fields with protocol := 1#8 } := hok
          exact (seal_length hok' h).2
    · rw [he] at h; cases h
  refine ⟨_, key, ?_, ?_⟩
  · rw [BitVec.toNat_ofNat]
  · rw [BitVec.toNat_ofNat]; omega

/-- A concrete case that meets the hypotheses. -/
example (cfg : Cfg) := C74_length_field cfg Sample.vops (.udp Sample.uops) (by call_by_call) (by call_by_call) _
    (Sample.value_of (by in_every_build))

theorem single_last {Op : Type} {f : Op → Option Bytes} {ops : List Op} {p : Bytes}
    (h : ops.filterMap f = [p]) : last f [] ops = p ∧ (ops.filterMap f).getLast? = some p ∧
      (ops.filterMap f).length ≤ 1 ∧ (∀ v ∈ ops.filterMap f, v = p) := by
  unfold last
  rw [h]
  refine ⟨rfl, rfl, Nat.le_refl _, ?_⟩
  intro v hv
  simpa using hv

/-- C53 is false of the code: for every IPv4 history in range and every UDP history with a payload that
does not fit a packet, `build()` returns a packet, and its length fields are not its length. -/
theorem C53_udp_too_large_refuted (cfg : Cfg) (vops : List V4Op) (uops : List UdpOp) (payload : Bytes)
    (hr : ∀ op ∈ vops, op.InRange) (h0 : vops.filterMap V4Op.payload? = [])
    (h1 : uops.filterMap UdpOp.payload? = [payload]) (hbig : 65535 < 28 + payload.length)
    (hsane : payload.length ≤ cfg.usizeMod / 4) :
    ∃ out l, ipv4Program cfg Dynamic.new vops (.udp uops) = .ok out ∧ out.length = 28 + payload.length ∧
      V4.length out = .ok l ∧ l.toNat ≠ out.length := by
  obtain ⟨hl, hg, hc, hall⟩ := single_last h1
  have hs : (Inner.udp uops).Sane cfg := by intro v hv; rw [hall v hv]; exact hsane
  obtain ⟨f, ha, hrun⟩ := v4_run vops hr (by rw [h0]; decide)
  have e := ipv4Program_dynamic cfg vops (.udp uops) (v4_sane_of_none h0) hs
  unfold ipv4Abs at e
  rw [need_dynamic (by omega), Outcome.ok_bind, hrun, Outcome.ok_bind] at e
  simp only [Inner.abs, no_payload_last _ _ h0, Option.isSome_none, Bool.false_eq_true, if_false] at e
  rw [need_dynamic (by omega), Outcome.ok_bind, udp_run uops hc, Outcome.ok_bind, hg] at e
  unfold UdpState.seal at e
  simp only [Option.getD_some] at e
  have hf : Ipv4Fields.ok { f with protocol := 17#8 } := ha.ok
  have hck := udp_checksum_v4 cfg hf 0#16 0#16 [] (udpHeader (last UdpOp.source? 0 uops)
    (last UdpOp.destination? 0 uops) (BitVec.ofNat 16 (8 + payload.length)) 0#16 ++ payload)
  rw [List.append_nil] at hck
  generalize ckOf _ = uck at hck
  rw [hck, Outcome.ok_bind, Outcome.ok_bind] at e
  generalize hd : udpHeader (last UdpOp.source? 0 uops)
    (last UdpOp.destination? 0 uops) (BitVec.ofNat 16 (8 + payload.length)) uck ++ payload = d at e
  have hdl : d.length = 8 + payload.length := by rw [← hd, List.length_append]; rfl
  obtain ⟨out, ho⟩ := seal_never cfg { f with protocol := 17#8 } d
  obtain ⟨hlen, hfield⟩ := seal_length hf ho
  refine ⟨out, _, e.trans ho, by omega, hfield, ?_⟩
  rw [BitVec.toNat_ofNat]
  omega

/-- A concrete case that meets the hypotheses. -/
example (cfg : Cfg) := C53_udp_too_large_refuted cfg Sample.vops [.source 53, .payload (zeros 65535)] (zeros 65535)
    (by call_by_call) (by call_by_call) rfl (by rw [zeros_length]; decide) (by rw [zeros_length]; in_every_build)

/-- C53 is false of the code: the same through TCP, for payloads that do not overflow the checksum's `u32`
sum. -/
theorem C53_tcp_too_large_refuted (cfg : Cfg) (vops : List V4Op) (tops : List TcpOp) (payload : Bytes)
    (hr : ∀ op ∈ vops, op.InRange) (h0 : vops.filterMap V4Op.payload? = [])
    (h1 : tops.filterMap TcpOp.payload? = [payload]) (hfl : TcpOp.FlagsLast tops)
    (hbig : 65535 < 40 + payload.length)
    (hodd : payload.length % 2 = 0 ∨ cfg.eofAdvances = false) (hsane : payload.length ≤ 130000) :
    ∃ out l, ipv4Program cfg Dynamic.new vops (.tcp tops) = .ok out ∧ out.length = 40 + payload.length ∧
      V4.length out = .ok l ∧ l.toNat ≠ out.length := by
  obtain ⟨hl, hg, hc, hall⟩ := single_last h1
  have hs : (Inner.tcp tops).Sane cfg := by intro v hv; rw [hall v hv]; (have := cfg.width; omega)
  obtain ⟨f, ha, e⟩ := tcp_program cfg vops tops hr h0 hs
  rw [tcp_run tops hfl hc, Outcome.ok_bind, hg] at e
  unfold TcpState.seal at e
  simp only [Option.getD_some] at e
  generalize (TcpFields.mk _ _ _ _ _ _) = tf at e
  generalize TcpState.flagBits _ = bits at e
  have hf : Ipv4Fields.ok { f with protocol := 6#8 } := ha.ok
  have hlen0 : ∀ c, (tcpHeader tf (0x5000#16 ||| bits) c ++ payload).length = 20 + payload.length := by
    intro c; rw [List.length_append, tcpHeader_length]
  have hck := tcp_checksum_v4 cfg hf 0#16 0#16 [] (tcpHeader tf (0x5000#16 ||| bits) 0#16 ++ payload)
    (by rw [hlen0]; omega)
  rw [if_neg (by
    rw [hlen0]
    rintro ⟨h1, h2⟩
    rcases hodd with h | h
    · omega
    · rw [h] at h2; cases h2), List.append_nil] at hck
  generalize ckOf _ = tck at hck
  rw [hck, Outcome.ok_bind, Outcome.ok_bind] at e
  obtain ⟨out, ho⟩ := seal_never cfg { f with protocol := 6#8 } (tcpHeader tf (0x5000#16 ||| bits) tck ++ payload)
  obtain ⟨hlen, hfield⟩ := seal_length hf ho
  rw [hlen0] at hlen
  refine ⟨out, _, e.trans ho, by omega, hfield, ?_⟩
  rw [BitVec.toNat_ofNat]
  omega

/-- A concrete case that meets the hypotheses. -/
example (cfg : Cfg) := C53_tcp_too_large_refuted cfg Sample.vops [.source 53, .payload (zeros 65536)] (zeros 65536)
    (by call_by_call) (by call_by_call) rfl (by call_by_call) (by rw [zeros_length]; decide)
    (.inl (by rw [zeros_length])) (by rw [zeros_length]; decide)

/-- C53 is false of the code: the same for any ICMP message that builds. -/
theorem C53_icmp_too_large_refuted (cfg : Cfg) (vops : List V4Op) (inner : IcmpInner) (d : Bytes)
    (hr : ∀ op ∈ vops, op.InRange) (h0 : vops.filterMap V4Op.payload? = [])
    (hs : (Inner.icmp inner).Sane cfg) (hd : icmpProgram cfg Dynamic.new inner = .ok d)
    (hbig : 65535 < 20 + d.length) :
    ∃ out l, ipv4Program cfg Dynamic.new vops (.icmp inner) = .ok out ∧ out.length = 20 + d.length ∧
      V4.length out = .ok l ∧ l.toNat ≠ out.length := by
  obtain ⟨f, ha, hrun⟩ := v4_run vops hr (by rw [h0]; decide)
  have e := ipv4Program_dynamic cfg vops (.icmp inner) (v4_sane_of_none h0) hs
  unfold ipv4Abs at e
  rw [need_dynamic (by omega), Outcome.ok_bind, hrun, Outcome.ok_bind] at e
  simp only [Inner.abs, no_payload_last _ _ h0, Option.isSome_none, Bool.false_eq_true, if_false] at e
  rw [icmpProgram_dynamic cfg inner hs] at hd
  rw [icmp_abs_at cfg inner (by omega), hd, Outcome.ok_bind] at e
  have hf : Ipv4Fields.ok { f with protocol := 1#8 } := ha.ok
  obtain ⟨out, ho⟩ := seal_never cfg { f with protocol := 1#8 } d
  obtain ⟨hlen, hfield⟩ := seal_length hf ho
  refine ⟨out, _, e.trans ho, by omega, hfield, ?_⟩
  rw [BitVec.toNat_ofNat]
  omega

/-- An echo request with 65535 bytes of data. -/
example (cfg : Cfg) : ∃ d, icmpProgram cfg Dynamic.new (.echo [.request, .payload (zeros 65535)]) = .ok d ∧
    65535 < 20 + d.length := by
  obtain ⟨d, _, h, _, hr⟩ := C48_echo_build cfg [.request, .payload (zeros 65535)] ⟨.request, by simp, rfl⟩ (by decide)
    (by show (zeros 65535).length ≤ _; rw [zeros_length]; in_every_build)
  have e := hr.size
  rw [show last EchoOp.payload? [] [.request, .payload (zeros 65535)] = zeros 65535 from rfl, zeros_length] at e
  exact ⟨d, h, by omega⟩

/-- C53 is false of the code: and for a raw payload. -/
theorem C53_raw_too_large_refuted (cfg : Cfg) (vops : List V4Op) (payload : Bytes)
    (hr : ∀ op ∈ vops, op.InRange) (h0 : vops.filterMap V4Op.payload? = [payload])
    (hbig : 65535 < 20 + payload.length) (hsane : payload.length ≤ cfg.usizeMod / 4) :
    ∃ out l, ipv4Program cfg Dynamic.new vops .plain = .ok out ∧ out.length = 20 + payload.length ∧
      V4.length out = .ok l ∧ l.toNat ≠ out.length := by
  obtain ⟨f, ha, e⟩ := ipv4_plain cfg vops hr (by rw [h0]; exact Nat.le_refl _)
    (v4_sane_of_single h0 hsane)
  have hl : (vops.filterMap V4Op.payload?).getLast? = some payload := by rw [h0]; rfl
  rw [hl] at e
  obtain ⟨ck, hraw⟩ := raw_shape cfg ha.ok payload
  obtain ⟨hlen, hfield⟩ := raw_length (a := ⟨f, some payload⟩) ha.ok hraw
  have hlen' : _ = 20 + payload.length := hlen
  refine ⟨_, _, e.trans hraw, hlen', hfield, ?_⟩
  rw [hlen', BitVec.toNat_ofNat]
  omega

example (cfg : Cfg) : ([.ttl 3, .source ⟨10, 0, 0, 1⟩] : List V4Op).filterMap V4Op.payload? = [] ∧
    ∃ p, ([.source 5, .payload p, .source 6] : List UdpOp).filterMap UdpOp.payload? = [p] ∧
      65535 < 28 + p.length ∧ p.length ≤ cfg.usizeMod / 4 :=
  ⟨by decide, List.replicate 70000 0, rfl, by rw [List.length_replicate]; decide,
    by rw [List.length_replicate]; in_every_build⟩

end Verif.Props

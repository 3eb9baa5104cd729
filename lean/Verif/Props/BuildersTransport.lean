import Verif.Props.Builders
import Verif.Samples

/-! # C45–C47: UDP and TCP inside IPv4 -/

namespace Verif.Props
open Verif Verif.Spec

/-! ## C45: UDP -/

/-- `d`, read through `udp::Packet` inside the IPv4 packet `out`, is the datagram the calls `uops` asked
for; `src` and `dst` are the addresses of `out`. -/
structure ReadsUdp (cfg : Cfg) (out : Bytes) (src dst : Ipv4Addr) (uops : List UdpOp) (d : Bytes) : Prop where
  accepted : Udp.new d = .ok d
  size : d.length = 8 + (last UdpOp.payload? [] uops).length
  source : Udp.source d = .ok (last UdpOp.source? 0 uops)
  destination : Udp.destination d = .ok (last UdpOp.destination? 0 uops)
  length : ∃ n, Udp.length d = .ok n ∧ n.toNat = d.length
  payload : Udp.payload d = .ok (last UdpOp.payload? [] uops)
  valid : Udp.isValid cfg (.v4 out) d = .ok true
  rfc : d.length % 2 = 0 ∨ cfg.eofAdvances = false →
    verifies (pseudoHeader src.octets dst.octets 17#8 d.length ++ d)

theorem v4_src_bytes {f : Ipv4Fields} (hf : Ipv4Fields.ok f) (total ck : U16) (rest : Bytes) :
    ((ipv4Header f total ck ++ rest).drop 12).take 4 = f.src ∧
    ((ipv4Header f total ck ++ rest).drop 16).take 4 = f.dst := by
  obtain ⟨⟨s, hs⟩, ⟨d, hd⟩⟩ := hf
  unfold ipv4Header
  rw [hs, hd]
  exact ⟨rfl, rfl⟩

/-- C45: for every history of IPv4 calls with values in range and no raw payload, and every history of UDP
calls with at most one payload, up to a total of 65535 bytes, the build succeeds and both layers read back
as asked for. -/
theorem C45_udp_build (cfg : Cfg) (vops : List V4Op) (uops : List UdpOp) (hr : ∀ op ∈ vops, op.InRange)
    (h0 : vops.filterMap V4Op.payload? = []) (h1 : (uops.filterMap UdpOp.payload?).length ≤ 1)
    (hsize : 28 + (last UdpOp.payload? [] uops).length ≤ 65535) :
    ∃ out d, ipv4Program cfg Dynamic.new vops (.udp uops) = .ok out ∧
      ReadsV4 cfg vops .udp d out ∧
      ReadsUdp cfg out (last V4Op.source? .zero vops) (last V4Op.destination? .zero vops) uops d := by
  obtain ⟨f, ha, hrun⟩ := v4_run vops hr (by rw [h0]; decide)
  have hsane : (Inner.udp uops).Sane cfg := by
    intro v hv
    have hv : v ∈ uops.filterMap UdpOp.payload? := hv
    have : last UdpOp.payload? [] uops = v := by
      unfold last
      match h : uops.filterMap UdpOp.payload? with
      | [] => rw [h] at hv; cases hv
      | [w] => rw [h] at hv; simp at hv; rw [hv]; rfl
      | _ :: _ :: _ => rw [h] at h1; simp at h1
    rw [this] at hsize
    (have := cfg.width; omega)
  have e := ipv4Program_dynamic cfg vops (.udp uops) (v4_sane_of_none h0) hsane
  unfold ipv4Abs at e
  rw [need_dynamic (by omega), Outcome.ok_bind, hrun, Outcome.ok_bind] at e
  simp only [Inner.abs, no_payload_last _ _ h0, Option.isSome_none, Bool.false_eq_true, if_false] at e
  rw [need_dynamic (by omega), Outcome.ok_bind, udp_run uops h1, Outcome.ok_bind] at e
  unfold UdpState.seal at e
  simp only [] at e
  change _ = ((Udp.checksumOf cfg (.v4 _) (udpHeader _ _
    (BitVec.ofNat 16 (8 + (last UdpOp.payload? [] uops).length)) 0#16 ++ last UdpOp.payload? [] uops) >>=
      fun ck => Outcome.ok (udpHeader _ _ (BitVec.ofNat 16 (8 + (last UdpOp.payload? [] uops).length)) ck ++
        last UdpOp.payload? [] uops)) >>= _) at e
  generalize hpl : last UdpOp.payload? [] uops = payload at *
  generalize hsp : last UdpOp.source? 0 uops = sport at *
  generalize hdp : last UdpOp.destination? 0 uops = dport at *
  have hlen := ofNat16_toNat (n := 8 + payload.length) (by omega)
  generalize BitVec.ofNat 16 (8 + payload.length) = len at *
  have hf : Ipv4Fields.ok { f with protocol := 17#8 } := ha.ok
  have hck := udp_checksum_v4 cfg hf 0#16 0#16 [] (udpHeader sport dport len 0#16 ++ payload)
  rw [List.append_nil] at hck
  generalize ckOf _ = uck at hck
  rw [hck, Outcome.ok_bind, Outcome.ok_bind] at e
  generalize hd : udpHeader sport dport len uck ++ payload = d at e
  have hdl : d.length = 8 + payload.length := by rw [← hd, List.length_append]; rfl
  obtain ⟨ick, e2, hreads⟩ := sealV4_reads cfg ha hr 17#8 d (by omega)
  rw [e2] at e
  have hv := udp_view sport dport len uck payload
  rw [hd] at hv
  obtain ⟨u1, u2, u3, u4, u5, u6⟩ := hv
  have hvalid : Udp.isValid cfg (.v4 (ipv4Header { f with protocol := 17#8 }
      (BitVec.ofNat 16 (20 + d.length)) ick ++ d)) d = .ok true := by
    unfold Udp.isValid
    have hc : Udp.checksumOf cfg (.v4 (ipv4Header { f with protocol := 17#8 }
        (BitVec.ofNat 16 (20 + d.length)) ick ++ d)) d = .ok uck :=
      (udp_checksum_v4 cfg hf (BitVec.ofNat 16 (20 + d.length)) ick d d).trans
        ((udp_checksum_v4 cfg hf 0#16 0#16 [] d).symm.trans (by
          rw [← hd, udp_checksum_skip cfg _ (by
              rw [List.length_append, Ipv4Fields.ok.length hf]; simp)]
          rw [List.append_nil]
          exact hck))
    rw [hc, Outcome.ok_bind, u4, Outcome.ok_bind]
    simp
  refine ⟨_, d, e, hreads, u5 (by omega), by rw [hpl]; exact hdl, ?_, ?_, ⟨_, u3, by omega⟩, ?_, hvalid, ?_⟩
  · rw [hsp]; exact u1
  · rw [hdp]; exact u2
  · rw [hpl]; exact u6 hlen
  · intro hodd
    have := (C62_udp_is_valid_iff_verifies cfg _ d (by
      rw [List.length_append, Ipv4Fields.ok.length hf]; omega) (by omega) hodd).1 hvalid
    rw [(v4_src_bytes hf _ _ _).1, (v4_src_bytes hf _ _ _).2] at this
    have h3 := this.1
    have e1 : ({ f with protocol := 17#8 } : Ipv4Fields).src = (last V4Op.source? .zero vops).octets := ha.src
    have e2 : ({ f with protocol := 17#8 } : Ipv4Fields).dst = (last V4Op.destination? .zero vops).octets := ha.dst
    rw [e1, e2] at h3
    exact h3

example : (∀ op ∈ ([.source ⟨10, 0, 0, 1⟩, .ttl 64, .id 7] : List V4Op), op.InRange) ∧
    ([.source ⟨10, 0, 0, 1⟩, .ttl 64, .id 7] : List V4Op).filterMap V4Op.payload? = [] ∧
    (([.source 53, .payload [1, 2, 3], .destination 1234, .source 54] : List UdpOp).filterMap
      UdpOp.payload?).length ≤ 1 ∧
    last UdpOp.source? 0 [.source 53, .payload [1, 2, 3], .destination 1234, .source 54] = 54 := by
  refine ⟨?_, by decide, by decide, by decide⟩
  intro op h
  simp only [List.mem_cons, List.not_mem_nil, or_false] at h
  rcases h with rfl | rfl | rfl <;> trivial

/-! ## C46: TCP -/

/-- `d`, read through `tcp::Packet` inside the IPv4 packet `out`, is the segment the calls `tops` asked
for; `src` and `dst` are the addresses of `out`. -/
structure ReadsTcp (cfg : Cfg) (out : Bytes) (src dst : Ipv4Addr) (tops : List TcpOp) (d : Bytes) : Prop where
  accepted : Tcp.new d = .ok d
  size : d.length = 20 + (last TcpOp.payload? [] tops).length
  source : Tcp.source d = .ok (last TcpOp.source? 0 tops)
  destination : Tcp.destination d = .ok (last TcpOp.destination? 0 tops)
  sequence : Tcp.sequence d = .ok (last TcpOp.sequence? 0 tops)
  acknowledgment : Tcp.acknowledgment d = .ok (last TcpOp.acknowledgment? 0 tops)
  offset : Tcp.offset d = .ok 5
  flags : Tcp.flags d = .ok (last TcpOp.flags? .empty tops)
  window : Tcp.window d = .ok (last TcpOp.window? 0 tops)
  pointer : Tcp.pointer d = .ok (last TcpOp.pointer? 0 tops)
  options : Tcp.options d = .ok []
  payload : Tcp.payload d = .ok (last TcpOp.payload? [] tops)
  valid : Tcp.isValid cfg (.v4 out) d = .ok true
  rfc : verifies (pseudoHeader src.octets dst.octets 6#8 d.length ++ d)

theorem tcp_sane {cfg : Cfg} {tops : List TcpOp} (h1 : (tops.filterMap TcpOp.payload?).length ≤ 1)
    (hsize : 40 + (last TcpOp.payload? [] tops).length ≤ 65535) : (Inner.tcp tops).Sane cfg := by
  intro v hv
  have hv : v ∈ tops.filterMap TcpOp.payload? := hv
  have : last TcpOp.payload? [] tops = v := by
    unfold last
    match h : tops.filterMap TcpOp.payload? with
    | [] => rw [h] at hv; cases hv
    | [w] => rw [h] at hv; simp at hv; rw [hv]; rfl
    | _ :: _ :: _ => rw [h] at h1; simp at h1
  rw [this] at hsize
  (have := cfg.width; omega)

/-- What a TCP program amounts to, once the calls have gone through. -/
theorem tcp_program (cfg : Cfg) (vops : List V4Op) (tops : List TcpOp) (hr : ∀ op ∈ vops, op.InRange)
    (h0 : vops.filterMap V4Op.payload? = []) (hs : (Inner.tcp tops).Sane cfg) :
    ∃ f, V4Asked vops f ∧ ipv4Program cfg Dynamic.new vops (.tcp tops) =
      (do
        let t ← runOps TcpOp.abs tops .init
        let d ← t.seal cfg (ipv4Header { f with protocol := 6#8 } 0#16 0#16)
        sealV4 cfg { f with protocol := 6#8 } d) := by
  obtain ⟨f, ha, hrun⟩ := v4_run vops hr (by rw [h0]; decide)
  have e := ipv4Program_dynamic cfg vops (.tcp tops) (v4_sane_of_none h0) hs
  unfold ipv4Abs at e
  rw [need_dynamic (by omega), Outcome.ok_bind, hrun, Outcome.ok_bind] at e
  simp only [Inner.abs, no_payload_last _ _ h0, Option.isSome_none, Bool.false_eq_true, if_false] at e
  rw [need_dynamic (by omega), Outcome.ok_bind] at e
  exact ⟨f, ha, e⟩

theorem flagBits_last (fields : TcpFields) (tops : List TcpOp) (p : Option Bytes) :
    (⟨fields, (tops.filterMap TcpOp.flags?).getLast?, p⟩ : TcpState).flagBits =
      (last TcpOp.flags? .empty tops).bits := by
  unfold TcpState.flagBits last
  cases (tops.filterMap TcpOp.flags?).getLast? <;> rfl

/-- C46: for every history of IPv4 calls with values in range and no raw payload, and every history of TCP
calls with at most one payload in which no header setter follows `flags()`, up to a total of 65535 bytes,
the build succeeds and both layers read back as asked for.  Not part of this claim: odd payload lengths on a `std` whose
failed `read_exact` moves the cursor, see `C60_tcp_build_odd_refuted`. -/
theorem C46_tcp_build (cfg : Cfg) (vops : List V4Op) (tops : List TcpOp)
    (hr : ∀ op ∈ vops, op.InRange) (h0 : vops.filterMap V4Op.payload? = [])
    (h1 : (tops.filterMap TcpOp.payload?).length ≤ 1) (hfl : TcpOp.FlagsLast tops)
    (hsize : 40 + (last TcpOp.payload? [] tops).length ≤ 65535)
    (hodd : (last TcpOp.payload? [] tops).length % 2 = 0 ∨ cfg.eofAdvances = false) :
    ∃ out d, ipv4Program cfg Dynamic.new vops (.tcp tops) = .ok out ∧
      ReadsV4 cfg vops .tcp d out ∧
      ReadsTcp cfg out (last V4Op.source? .zero vops) (last V4Op.destination? .zero vops) tops d := by
  obtain ⟨f, ha, e⟩ := tcp_program cfg vops tops hr h0 (tcp_sane h1 hsize)
  rw [tcp_run tops hfl h1, Outcome.ok_bind] at e
  unfold TcpState.seal at e
  rw [flagBits_last] at e
  simp only [] at e
  change _ = ((Tcp.checksumOf cfg (.v4 _) (tcpHeader _ _ 0#16 ++ last TcpOp.payload? [] tops) >>=
      fun ck => Outcome.ok (tcpHeader _ _ ck ++ last TcpOp.payload? [] tops)) >>= _) at e
  generalize hpl : last TcpOp.payload? [] tops = payload at *
  generalize hfe : (⟨last TcpOp.source? 0 tops, last TcpOp.destination? 0 tops,
        last TcpOp.sequence? 0 tops, last TcpOp.acknowledgment? 0 tops, last TcpOp.window? 0 tops,
        last TcpOp.pointer? 0 tops⟩ : TcpFields) = tf at e
  generalize hg : last TcpOp.flags? .empty tops = g at *
  have hf : Ipv4Fields.ok { f with protocol := 6#8 } := ha.ok
  have hlen0 : ∀ c, (tcpHeader tf (0x5000#16 ||| g.bits) c ++ payload).length = 20 + payload.length := by
    intro c; rw [List.length_append, tcpHeader_length]
  have hck := tcp_checksum_v4 cfg hf 0#16 0#16 [] (tcpHeader tf (0x5000#16 ||| g.bits) 0#16 ++ payload)
    (by rw [hlen0]; omega)
  rw [if_neg (by
    rw [hlen0]
    rintro ⟨h1, h2⟩
    rcases hodd with h | h
    · omega
    · rw [h] at h2; cases h2), List.append_nil] at hck
  generalize ckOf _ = tck at hck
  rw [hck, Outcome.ok_bind, Outcome.ok_bind] at e
  generalize hd : tcpHeader tf (0x5000#16 ||| g.bits) tck ++ payload = d at e
  have hdl : d.length = 20 + payload.length := by rw [← hd, hlen0]
  obtain ⟨ick, e2, hreads⟩ := sealV4_reads cfg ha hr 6#8 d (by omega)
  rw [e2] at e
  have hv := tcp_view tf (0x5000#16 ||| g.bits) tck payload
  have hv2 := tcp_final_view tf g tck payload
  rw [hd] at hv hv2
  obtain ⟨u1, u2, u3, u4, u5, u6, u7, u8⟩ := hv
  obtain ⟨w1, w2, w3, w4, w5⟩ := hv2
  have hvalid : Tcp.isValid cfg (.v4 (ipv4Header { f with protocol := 6#8 }
      (BitVec.ofNat 16 (20 + d.length)) ick ++ d)) d = .ok true := by
    unfold Tcp.isValid
    have hc : Tcp.checksumOf cfg (.v4 (ipv4Header { f with protocol := 6#8 }
        (BitVec.ofNat 16 (20 + d.length)) ick ++ d)) d = .ok tck :=
      (tcp_checksum_v4 cfg hf (BitVec.ofNat 16 (20 + d.length)) ick d d (by omega)).trans
        ((tcp_checksum_v4 cfg hf 0#16 0#16 [] d (by omega)).symm.trans (by
          rw [← hd, tcp_checksum_skip cfg _ (by
              rw [List.length_append, Ipv4Fields.ok.length hf]; simp) _ _ _ _ (by omega)]
          rw [List.append_nil]
          exact hck))
    rw [hc, Outcome.ok_bind, u7, Outcome.ok_bind]
    simp
  refine ⟨_, d, e, hreads, w1, by rw [hpl]; exact hdl, ?_, ?_, ?_, ?_, w2, ?_, ?_, ?_, w5, ?_, hvalid, ?_⟩
  · rw [u1, ← hfe]
  · rw [u2, ← hfe]
  · rw [u3, ← hfe]
  · rw [u4, ← hfe]
  · rw [hg]; exact w3
  · rw [u5, ← hfe]
  · rw [u6, ← hfe]
  · rw [hpl]; exact w4
  · have := (C62_tcp_is_valid_iff_verifies cfg _ d (by
      rw [List.length_append, Ipv4Fields.ok.length hf]; omega) (by omega) (by omega)
      (by rw [hdl]; rcases hodd with h | h
          · left; omega
          · exact .inr h)).1 hvalid
    rw [(v4_src_bytes hf _ _ _).1, (v4_src_bytes hf _ _ _).2] at this
    have h3 := this.1
    have e1 : ({ f with protocol := 6#8 } : Ipv4Fields).src = (last V4Op.source? .zero vops).octets := ha.src
    have e2 : ({ f with protocol := 6#8 } : Ipv4Fields).dst = (last V4Op.destination? .zero vops).octets := ha.dst
    rw [e1, e2] at h3
    exact h3

/-- A concrete case that meets the hypotheses. -/
example (cfg : Cfg) := C46_tcp_build cfg Sample.vops Sample.tops (by call_by_call) (by call_by_call) (by call_by_call)
    (by call_by_call) (by call_by_call) (.inl (by decide))

/-- C60 is false of the code on a recent `std`: every build with a payload of odd length panics. -/
theorem C60_tcp_build_odd_refuted (cfg : Cfg) (hcfg : cfg.eofAdvances = true) (vops : List V4Op)
    (tops : List TcpOp) (hr : ∀ op ∈ vops, op.InRange) (h0 : vops.filterMap V4Op.payload? = [])
    (h1 : (tops.filterMap TcpOp.payload?).length ≤ 1) (hfl : TcpOp.FlagsLast tops)
    (hsize : 40 + (last TcpOp.payload? [] tops).length ≤ 65535)
    (hodd : (last TcpOp.payload? [] tops).length % 2 = 1) :
    ipv4Program cfg Dynamic.new vops (.tcp tops) = .panic := by
  obtain ⟨f, ha, e⟩ := tcp_program cfg vops tops hr h0 (tcp_sane h1 hsize)
  rw [e, tcp_run tops hfl h1, Outcome.ok_bind]
  unfold TcpState.seal
  simp only []
  change ((Tcp.checksumOf cfg (.v4 _) (tcpHeader _ _ 0#16 ++ last TcpOp.payload? [] tops) >>=
      fun ck => Outcome.ok (tcpHeader _ _ ck ++ last TcpOp.payload? [] tops)) >>= _) = _
  generalize last TcpOp.payload? [] tops = payload at *
  have hf : Ipv4Fields.ok { f with protocol := 6#8 } := ha.ok
  have hlen0 : ∀ tf w c, (tcpHeader tf w c ++ payload).length = 20 + payload.length := by
    intro tf w c; rw [List.length_append, tcpHeader_length]
  generalize hd : tcpHeader _ _ 0#16 ++ payload = d
  have hck := tcp_checksum_v4 cfg hf 0#16 0#16 [] d (by rw [← hd, hlen0]; omega)
  rw [if_pos (by rw [← hd, hlen0]; exact ⟨by omega, hcfg⟩), List.append_nil] at hck
  rw [hck]
  rfl

example : TcpOp.FlagsLast [.source 1, .window 3, .source 2, .flags .empty, .payload [1, 2]] ∧
    (([.source 1, .window 3, .source 2, .flags .empty, .payload [1, 2]] : List TcpOp).filterMap
      TcpOp.payload?).length ≤ 1 := by
  refine ⟨?_, by decide⟩
  intro op h
  simp only [List.mem_cons, List.not_mem_nil, or_false] at h
  exact ⟨_, h⟩

/-! ## C47: the order of TCP setters -/

theorem tcp_flags_then {a : TcpState} (h : a.flags.isSome) : ∀ (ops : List TcpOp),
    ¬ (∀ op ∈ ops, ∃ v, op = .payload v) → ∀ r, runOps TcpOp.abs ops a ≠ .ok r := by
  intro ops
  induction ops generalizing a with
  | nil => intro hn; exact absurd (fun _ h => by cases h) hn
  | cons op ops ih =>
    intro hn r
    show (op.abs a >>= fun a => runOps TcpOp.abs ops a) ≠ _
    cases op with
    | payload v =>
      by_cases hp : a.payload.isSome
      · have : TcpOp.abs (.payload v) a = .err .alreadyDefined := by simp only [TcpOp.abs, hp, if_true]
        rw [this]; intro h; cases h
      · have e : TcpOp.abs (.payload v) a = .ok (TcpOp.step (.payload v) a) := by
          simp only [TcpOp.abs]
          rw [if_neg hp]
        rw [e]
        refine ih (a := TcpOp.step (.payload v) a) h ?_ r
        intro hall
        apply hn
        intro o ho
        simp only [List.mem_cons] at ho
        rcases ho with rfl | ho
        · exact ⟨v, rfl⟩
        · exact hall o ho
    | source v =>
      have : TcpOp.abs (.source v) a = .err .io := by simp only [TcpOp.abs, h, if_true]
      rw [this]; intro h; cases h
    | destination v | sequence v | acknowledgment v | flags v | window v | pointer v =>
      simp only [TcpOp.abs, h, if_true]
      intro h; cases h

theorem tcp_not_flagsLast : ∀ (ops : List TcpOp) (a : TcpState), ¬ TcpOp.FlagsLast ops →
    ∀ r, runOps TcpOp.abs ops a ≠ .ok r := by
  intro ops
  induction ops with
  | nil => intro a h; exact absurd trivial h
  | cons op ops ih =>
    intro a h r
    show (op.abs a >>= fun a => runOps TcpOp.abs ops a) ≠ _
    cases ha : op.abs a with
    | err e => intro h; cases h
    | panic => intro h; cases h
    | ok a' =>
      rw [Outcome.ok_bind]
      cases op with
      | flags v =>
        refine tcp_flags_then ?_ ops h r
        simp only [TcpOp.abs] at ha
        split at ha
        · cases ha
        · injection ha with ha
          rw [← ha]
          rfl
      | _ => exact ih a' h r

/-- C81, exactly how far it holds: for every history of TCP calls with at most one payload, the build
succeeds if and only if no header setter (and no second `flags()`) comes after `flags()`.  Any order and
repetition of the other setters is fine. -/
theorem C81_tcp_order_exact (cfg : Cfg) (vops : List V4Op) (tops : List TcpOp)
    (hr : ∀ op ∈ vops, op.InRange) (h0 : vops.filterMap V4Op.payload? = [])
    (h1 : (tops.filterMap TcpOp.payload?).length ≤ 1)
    (hsize : 40 + (last TcpOp.payload? [] tops).length ≤ 65535)
    (hodd : (last TcpOp.payload? [] tops).length % 2 = 0 ∨ cfg.eofAdvances = false) :
    (∃ out, ipv4Program cfg Dynamic.new vops (.tcp tops) = .ok out) ↔ TcpOp.FlagsLast tops := by
  constructor
  · intro ⟨out, h⟩
    obtain ⟨f, ha, e⟩ := tcp_program cfg vops tops hr h0 (tcp_sane h1 hsize)
    rw [e] at h
    apply Classical.byContradiction
    intro hn
    have := tcp_not_flagsLast tops .init hn
    cases hrun : runOps TcpOp.abs tops .init with
    | ok r => exact this r hrun
    | err e => rw [hrun] at h; cases h
    | panic => rw [hrun] at h; cases h
  · intro hfl
    obtain ⟨out, d, h, -⟩ := C46_tcp_build cfg vops tops hr h0 h1 hfl hsize hodd
    exact ⟨out, h⟩

/-- A concrete case that meets the hypotheses. -/
example (cfg : Cfg) := C81_tcp_order_exact cfg Sample.vops Sample.tops (by call_by_call) (by call_by_call)
    (by call_by_call) (by call_by_call) (.inl (by decide))

/-- C47 is false of the code: after `flags(v)`, `source()` returns an I/O error and every other header
setter panics, whatever came before and whatever would follow. -/
theorem C47_tcp_order_refuted (cfg : Cfg) (vops : List V4Op) (before rest : List TcpOp) (v : TcpFlags)
    (op : TcpOp) (hr : ∀ op ∈ vops, op.InRange) (h0 : vops.filterMap V4Op.payload? = [])
    (hb : ∀ op ∈ before, op.flags? = none) (hb' : before.filterMap TcpOp.payload? = [])
    (hop : op.payload? = none) (hs : (Inner.tcp rest).Sane cfg) :
    ipv4Program cfg Dynamic.new vops (.tcp (before ++ .flags v :: op :: rest)) =
      (match op with
        | .source _ => .err .io
        | _ => .panic) := by
  have hfl : TcpOp.FlagsLast before := by
    clear hb' hs
    induction before with
    | nil => trivial
    | cons o os ih =>
      have h := ih (fun o h => hb o (by simp [h]))
      cases o with
      | flags v => exact absurd (hb (.flags v) (by simp)) (fun h => by cases h)
      | _ => exact h
  have hsane : (Inner.tcp (before ++ .flags v :: op :: rest)).Sane cfg := by
    intro w hw
    have hw : w ∈ (before ++ .flags v :: op :: rest).filterMap TcpOp.payload? := hw
    rw [List.filterMap_append, hb', List.nil_append, List.filterMap_cons] at hw
    simp only [TcpOp.payload?] at hw
    rw [List.filterMap_cons, hop] at hw
    exact hs w hw
  obtain ⟨f, ha, e⟩ := tcp_program cfg vops _ hr h0 hsane
  rw [e, runOps_append, tcp_run before hfl (by rw [hb']; decide), Outcome.ok_bind]
  have hno : (before.filterMap TcpOp.flags?).getLast? = none := by
    have : before.filterMap TcpOp.flags? = [] := List.filterMap_eq_nil_iff.2 hb
    rw [this]; rfl
  rw [hno]
  cases op with
  | payload w => cases hop
  | _ => rfl

/-- A concrete case that meets the hypotheses. -/
example (cfg : Cfg) := C47_tcp_order_refuted cfg Sample.vops Sample.tcpHead [.pointer 1] ⟨2, by decide⟩ (.window 512)
    (by call_by_call) (by call_by_call) (by call_by_call) rfl rfl (by call_by_call)

end Verif.Props

import Verif.Spec.Reset
import Verif.Props.Service
import Verif.Props.Flags

/-!
# Refusing TCP connections (C139)

A host without listening sockets: it resets whatever connection is tried, as RFC 793 says.
-/

namespace Verif.Props
open Verif Verif.Spec

/-- An interface. -/
structure Host where
  mac : HwAddr
  addr : Ipv4Addr

/-- What comes for the host in an IPv4 packet of protocol `want`; `k` goes on with the IPv4 packet and its payload.

```text
let frame = match ether::Packet::new(bytes) { Ok(f) => f, Err(_) => return Ok(None) };
if frame.destination() != mac || frame.protocol() != ether::Protocol::Ipv4 { return Ok(None); }
let ip = match ip::v4::Packet::new(frame.payload()) { Ok(p) => p, Err(_) => return Ok(None) };
if !ip.is_valid() || ip.destination() != addr || ip.protocol() != want { return Ok(None); }
```
-/
def Host.opened (cfg : Cfg) (host : Host) (want : IpProtocol) (b : Bytes)
    (k : HwAddr → Ipv4Addr → Bytes → Bytes → Outcome (Option Bytes)) : Outcome (Option Bytes) :=
  attempt (Ether.new b)
    (fun f => do
      let dst ← Ether.destination f
      let who ← Ether.source f
      let type ← Ether.protocol f
      let body ← Ether.payload f
      if dst = host.mac ∧ type = .ipv4 then
        attempt (V4.new body)
          (fun p => do
            let src ← V4.source p
            let addr ← V4.destination p
            let proto ← V4.protocol p
            let good ← V4.isValid cfg p
            let inside ← V4.payload p
            if good = true ∧ addr = host.addr ∧ proto = want then k who src p inside else .ok none)
          (fun _ => .ok none)
      else .ok none)
    (fun _ => .ok none)

/-- The numbers and control bits of the reset.

```text
if flags.contains(tcp::flag::RST) { return None; }
if flags.contains(tcp::flag::ACK) { Some((ack, 0, tcp::flag::RST)) }
else {
    let n = data.len() as u32 + flags.contains(tcp::flag::SYN) as u32 + flags.contains(tcp::flag::FIN) as u32;
    Some((0, seq.wrapping_add(n), tcp::flag::RST | tcp::flag::ACK))
}
```
-/
def resetWords (seq ack : U32) (flags : TcpFlags) (len : Nat) : Option (U32 × U32 × TcpFlags) :=
  if flags.contains .rst then none
  else if flags.contains .ack then some (ack, 0, .rst)
  else some (0, seq + BitVec.ofNat 32 (len + (flags.contains .syn).toNat + (flags.contains .fin).toNat),
    TcpFlags.rst.union .ack)

/-- The reset.

```text
ether::Builder::default()
    .destination(who)?.source(mac)?
    .ip()?.v4()?.ttl(64)?.source(addr)?.destination(from)?
    .tcp()?.source(port)?.destination(back)?.sequence(seq)?.acknowledgment(ack)?.flags(flags)?
    .build()
```
-/
def Host.reset (cfg : Cfg) (host : Host) (who : HwAddr) (src : Ipv4Addr) (port back : U16) (seq ack : U32)
    (flags : TcpFlags) : Outcome Bytes :=
  ethernetProgram cfg Dynamic.new [.destination who, .source host.mac] [.ttl 64, .source host.addr, .destination src]
    (.tcp [.source port, .destination back, .sequence seq, .acknowledgment ack, .flags flags])

/-- The host.

```text
let tcp = match tcp::Packet::new(ip.payload()) { Ok(t) => t, Err(_) => return Ok(None) };
if !tcp.is_valid(&ip::Packet::from(&ip)) { return Ok(None); }
match reset_words(tcp.sequence(), tcp.acknowledgment(), tcp.flags(), tcp.payload().len()) {
    None => Ok(None),
    Some((seq, ack, flags)) =>
        Ok(Some(reset(frame.source(), ip.source(), tcp.destination(), tcp.source(), seq, ack, flags)?)),
}
```
-/
def Host.refuse (cfg : Cfg) (host : Host) (b : Bytes) : Outcome (Option Bytes) :=
  host.opened cfg .tcp b fun who src p inside =>
    attempt (Tcp.new inside)
      (fun t => do
        let back ← Tcp.source t
        let port ← Tcp.destination t
        let seq ← Tcp.sequence t
        let ack ← Tcp.acknowledgment t
        let flags ← Tcp.flags t
        let sound ← Tcp.isValid cfg (.v4 p) t
        let data ← Tcp.payload t
        if sound = true then
          match resetWords seq ack flags data.length with
          | none => .ok none
          | some (s, a, f) => do
            let out ← host.reset cfg who src port back s a f
            .ok (some out)
        else .ok none)
      (fun _ => .ok none)

/-- What is to be read in `b` is a TCP segment for the host, sound at both layers, from `who` and `src`. -/
def Host.Segment (eof : Bool) (host : Host) (b : Bytes) (who : HwAddr) (src : Ipv4Addr)
    (sport dport seq ack flags : Nat) (data : Bytes) : Prop :=
  ∃ (shown : IpShown) (window pointer : Nat),
    reading eof b = .ok (.frame host.mac.octets who.octets 0x0800 (.ip shown (.tcp sport dport seq ack flags window
      pointer true data))) ∧
    shown.src = src.octets ∧ shown.dst = host.addr.octets ∧ shown.good = true

/-! ## Flags and numbers -/

theorem contains_bit (f : TcpFlags) (x : TcpFlag) :
    f.contains (TcpFlag.const x) = decide (f.bits.toNat / 2 ^ TcpFlag.place x % 2 = 1) := by
  rw [tcp_has, BitVec.getLsbD, Nat.testBit_eq_decide_div_mod_eq]

theorem reset_words (seq ack : U32) (flags : TcpFlags) (len : Nat) :
    (resetWords seq ack flags len).map (fun r => (r.1.toNat, r.2.1.toNat, r.2.2.bits.toNat)) =
      resetFor seq.toNat ack.toNat flags.bits.toNat len := by
  have hr : flags.contains .rst = decide (flags.bits.toNat / 4 % 2 = 1) := contains_bit flags .rst
  have ha : flags.contains .ack = decide (flags.bits.toNat / 16 % 2 = 1) := contains_bit flags .ack
  have hs : flags.contains .syn = decide (flags.bits.toNat / 2 % 2 = 1) := contains_bit flags .syn
  have hf : flags.contains .fin = decide (flags.bits.toNat / 1 % 2 = 1) := contains_bit flags .fin
  have hn : ∀ n : Nat, (decide (n % 2 = 1)).toNat = n % 2 := by
    intro n
    rcases Nat.mod_two_eq_zero_or_one n with h | h <;> rw [h] <;> rfl
  unfold resetWords resetFor
  rw [hr, ha, hs, hf, hn, hn, Nat.div_one]
  simp only [decide_eq_true_eq]
  split
  · rfl
  split
  · rfl
  · show some (_, _, _) = _
    rw [BitVec.toNat_add, BitVec.toNat_ofNat]
    congr 3
    omega

/-! ## The layers below -/

/-- Only TCP is shown as TCP. -/
theorem message_tcp {eof : Bool} {p : Bytes} {a b c d e f g : Nat} {v : Bool} {x : Bytes}
    (h : messageReading eof p = .ok (.tcp a b c d e f g v x)) : field p 72 8 = 6 ∧
      tcpReading eof ((p.drop 12).take 4) ((p.drop 16).take 4) (ipData p) = .ok (.tcp a b c d e f g v x) := by
  unfold messageReading at h
  split at h
  · have h := Outcome.ok.inj h
    unfold udpReading at h
    split at h <;> cases h
  split at h
  · exact ⟨by assumption, h⟩
  split at h
  · have h := Outcome.ok.inj h
    unfold icmpReading at h
    simp only [] at h
    repeat' split at h
    all_goals cases h
  · cases Outcome.ok.inj h

/-- In `b` is an IPv4 packet of that protocol for the host. -/
def Host.For (host : Host) (b : Bytes) (proto : Nat) (who : HwAddr) (src : Ipv4Addr) : Prop :=
  14 ≤ b.length ∧ b.take 6 = host.mac.octets ∧ (b.drop 6).take 6 = who.octets ∧ field b 96 16 = 0x0800 ∧
    ipError (b.drop 14) = none ∧ (ipShown (b.drop 14)).src = src.octets ∧ (ipShown (b.drop 14)).dst = host.addr.octets ∧
    (ipShown (b.drop 14)).good = true ∧ field (b.drop 14) 72 8 = proto

theorem Host.For.same {host : Host} {b : Bytes} {proto : Nat} {who who' : HwAddr} {src src' : Ipv4Addr}
    (h : host.For b proto who src) (h' : host.For b proto who' src') : who' = who ∧ src' = src :=
  ⟨hw_octets (h'.2.2.1.symm.trans h.2.2.1), ip_octets (h'.2.2.2.2.2.1.symm.trans h.2.2.2.2.2.1)⟩

/-- Segments, in terms of the bits. -/
theorem segment_iff (eof : Bool) (host : Host) (b : Bytes) (who : HwAddr) (src : Ipv4Addr) (s d seq ack flags : Nat)
    (data : Bytes) : host.Segment eof b who src s d seq ack flags data ↔
      host.For b 6 who src ∧ ∃ w u, tcpReading eof (((b.drop 14).drop 12).take 4) (((b.drop 14).drop 16).take 4) (ipData (b.drop 14)) =
        .ok (.tcp s d seq ack flags w u true data) := by
  constructor
  · rintro ⟨shown, w, u, e, h1, h2, h3⟩
    unfold reading at e
    split at e
    · cases Outcome.ok.inj e
    cases hc : contentReading eof (field b 96 16) (b.drop 14) with
    | panic => rw [hc] at e; cases e
    | err x => rw [hc] at e; cases e
    | ok c =>
      rw [hc, Outcome.ok_bind] at e
      have e := Outcome.ok.inj e
      injection e with e1 e2 e3 e4
      subst e4
      unfold contentReading at hc
      rw [if_pos e3] at hc
      cases hp : ipError (b.drop 14) with
      | some x => rw [hp] at hc; cases Outcome.ok.inj hc
      | none =>
        rw [hp] at hc
        simp only [] at hc
        cases hm : messageReading eof (b.drop 14) with
        | panic => rw [hm] at hc; cases hc
        | err x => rw [hm] at hc; cases hc
        | ok m =>
          rw [hm, Outcome.ok_bind] at hc
          have hc := Outcome.ok.inj hc
          injection hc with c1 c2
          subst c1; subst c2
          obtain ⟨m1, m2⟩ := message_tcp hm
          exact ⟨⟨by omega, e1, e2, e3, hp, h1, h2, h3, m1⟩, w, u, m2⟩
  · rintro ⟨⟨l, e1, e2, e3, hp, h1, h2, h3, m1⟩, w, u, m2⟩
    refine ⟨ipShown (b.drop 14), w, u, ?_, h1, h2, h3⟩
    unfold reading contentReading messageReading
    rw [if_neg (by omega), if_pos e3, hp, if_neg (by rw [m1]; decide), if_pos m1, m2, e1, e2, e3]
    rfl

theorem proto_is (p : Bytes) (want : IpProtocol) (hw : IpProtocol.ofWire want.toWire = want) :
    IpProtocol.ofWire (BitVec.ofNat 8 (field p 72 8)) = want ↔ field p 72 8 = want.toWire.toNat := by
  have hn := field_value p 72 8 (Nat.le_refl 8)
  constructor
  · intro h
    have hw := proto_wire (BitVec.ofNat 8 (field p 72 8))
    rw [h] at hw
    rw [← hw] at hn
    exact hn.symm
  · intro h
    rw [h, BitVec.ofNat_toNat, BitVec.setWidth_eq, hw]

/-- Opening a frame, in terms of the bits. -/
theorem opened_iff (cfg : Cfg) (host : Host) (want : IpProtocol) (hw : IpProtocol.ofWire want.toWire = want) (b : Bytes)
    (hb : b.length < cfg.usizeMod) :
    (∃ who src, host.For b want.toWire.toNat who src ∧
      ∀ k, host.opened cfg want b k = k who src (b.drop 14) (ipData (b.drop 14))) ∨
    ((∀ who src, ¬ host.For b want.toWire.toNat who src) ∧ ∀ k, host.opened cfg want b k = .ok none) := by
  unfold Host.opened Host.For
  have ha := C10_ether_accept b
  by_cases h14 : 14 ≤ b.length
  case neg =>
    right
    rw [if_neg h14] at ha
    rw [ha]
    exact ⟨fun (w : HwAddr) (s : Ipv4Addr) h => h14 h.1, fun _ => rfl⟩
  rw [if_pos h14] at ha
  obtain ⟨⟨d, f1, g1⟩, ⟨who, f2, g2⟩, f3, -, f5, -⟩ := C10_ether_views cfg b hb ha
  simp only [ha, attempt_ok, f1, f2, f3, f5, Outcome.ok_bind]
  by_cases c1 : d = host.mac ∧ EtherProtocol.ofWire (BitVec.ofNat 16 (field b 96 16)) = .ipv4
  case neg =>
    right
    simp only [if_neg c1]
    refine ⟨fun w s h => ?_, fun _ => trivial⟩
    obtain ⟨-, e1, -, e3, -⟩ := h
    exact c1 ⟨hw_octets (g1.trans e1), (proto_ipv4 b).2 e3⟩
  simp only [if_pos c1, ip_accept (b.drop 14)]
  cases hp : ipError (b.drop 14) with
  | some x =>
    right
    refine ⟨fun w s h => ?_, fun _ => rfl⟩
    obtain ⟨-, -, -, -, e4, -⟩ := h
    first | cases e4 | (rw [hp] at e4; cases e4)
  | none =>
    obtain ⟨h20, hh, ht, hd⟩ := ip_accepted hp
    obtain ⟨-, -, -, -, -, -, -, -, i9, -, ⟨src, i11, j11⟩, ⟨addr, i12, j12⟩⟩ := C14_v4_fields (b.drop 14) h20
    have hv : V4.isValid cfg (b.drop 14) = .ok (ipShown (b.drop 14)).good := v4_sum cfg h20 hh
    simp only [attempt_ok, i11, i12, i9, hv, hd, Outcome.ok_bind]
    by_cases c2 : (ipShown (b.drop 14)).good = true ∧ addr = host.addr ∧
        IpProtocol.ofWire (BitVec.ofNat 8 (field (b.drop 14) 72 8)) = want
    case neg =>
      right
      simp only [if_neg c2]
      refine ⟨fun w s h => ?_, fun _ => trivial⟩
      obtain ⟨-, -, -, -, -, -, e6, e7, e8⟩ := h
      exact c2 ⟨e7, ip_octets (j12.trans e6), (proto_is _ want hw).2 e8⟩
    simp only [if_pos c2]
    left
    refine ⟨who, src, ⟨h14, ?_, g2.symm, (proto_ipv4 b).1 c1.2, trivial, j11.symm, ?_, c2.1, (proto_is _ want hw).1 c2.2.2⟩,
      fun _ => rfl⟩
    · rw [← g1, c1.1]
    · rw [← c2.2.1]
      exact j12.symm

/-! ## The resets -/

/-- The length of a frame around a TCP segment without options. -/
theorem tcp_frame_length (cfg : Cfg) (eops : List EtherOp) (vops : List V4Op) (tops : List TcpOp)
    (he : eops.filterMap EtherOp.payload? = []) (hr : ∀ op ∈ vops, op.InRange)
    (h0 : vops.filterMap V4Op.payload? = []) (h1 : (tops.filterMap TcpOp.payload?).length ≤ 1)
    (hfl : TcpOp.FlagsLast tops) (hsize : 40 + (last TcpOp.payload? [] tops).length ≤ 65535)
    (hodd : (last TcpOp.payload? [] tops).length % 2 = 0 ∨ cfg.eofAdvances = false) :
    ∃ frame, ethernetProgram cfg Dynamic.new eops vops (.tcp tops) = .ok frame ∧
      frame.length = 54 + (last TcpOp.payload? [] tops).length := by
  obtain ⟨out, d, e, hv, hu⟩ := C46_tcp_build cfg vops tops hr h0 h1 hfl hsize hodd
  have hi : (Inner.tcp tops).Sane cfg := single_sane (fun v hv => hv) h1 (by omega)
  have hc := C49_stack_compose cfg eops vops (.tcp tops) he (v4_sane_of_none h0) hi (fun h => (by cases h))
  rw [e] at hc
  obtain ⟨frame, ef, hf⟩ := hc
  refine ⟨frame, ef, ?_⟩
  have hs := hv.size
  have hd := hu.size
  rw [hf.bytes]
  simp only [ethernetFrame, List.length_append, HwAddr.octets, List.length_cons, List.length_nil, be16]
  omega

theorem reset_reads (cfg : Cfg) (host : Host) (who : HwAddr) (src : Ipv4Addr) (port back : U16) (seq ack : U32)
    (flags : TcpFlags) : ∃ out, host.reset cfg who src port back seq ack flags = .ok out ∧ out.length = 54 ∧
      dissect cfg out = .ok (.frame who.octets host.mac.octets 0x0800
        (.ip ⟨host.addr.octets, src.octets, 0, 0, 0, 0, 64, 6, true⟩
          (.tcp port.toNat back.toNat seq.toNat ack.toNat flags.bits.toNat 0 0 true []))) := by
  have hr : ∀ op ∈ [V4Op.ttl 64, .source host.addr, .destination src], op.InRange := by
    intro op h
    simp only [List.mem_cons, List.not_mem_nil, or_false] at h
    rcases h with rfl | rfl | rfl <;> simp [V4Op.InRange]
  have hl : TcpOp.FlagsLast [.source port, .destination back, .sequence seq, .acknowledgment ack, .flags flags] := by
    intro op h
    cases h
  obtain ⟨out, e, h⟩ := C137_built_tcp cfg [.destination who, .source host.mac]
    [.ttl 64, .source host.addr, .destination src]
    [.source port, .destination back, .sequence seq, .acknowledgment ack, .flags flags] rfl hr rfl (Nat.zero_le 1)
    hl (show 40 + 0 ≤ 65535 by omega) (.inl rfl)
  obtain ⟨out', e', h'⟩ := tcp_frame_length cfg [.destination who, .source host.mac]
    [.ttl 64, .source host.addr, .destination src]
    [.source port, .destination back, .sequence seq, .acknowledgment ack, .flags flags] rfl hr rfl (Nat.zero_le 1)
    hl (show 40 + 0 ≤ 65535 by omega) (.inl rfl)
  rw [e] at e'
  cases Outcome.ok.inj e'
  exact ⟨out, e, h', h⟩

/-- What the host does behind a sound segment. -/
theorem refuse_tcp (cfg : Cfg) (host : Host) (who : HwAddr) (src : Ipv4Addr) {p : Bytes} (hp : ipError p = none)
    {s d seq ack flags w u : Nat} {v : Bool} {data : Bytes}
    (h : tcpReading cfg.eofAdvances ((p.drop 12).take 4) ((p.drop 16).take 4) (ipData p) =
      .ok (.tcp s d seq ack flags w u v data)) :
    ∃ (s' d' : U16) (seq' ack' : U32) (f : TcpFlags), s'.toNat = s ∧ d'.toNat = d ∧ seq'.toNat = seq ∧
      ack'.toNat = ack ∧ f.bits.toNat = flags ∧
      (attempt (Tcp.new (ipData p))
        (fun t => do
          let back ← Tcp.source t
          let port ← Tcp.destination t
          let seq ← Tcp.sequence t
          let ack ← Tcp.acknowledgment t
          let flags ← Tcp.flags t
          let sound ← Tcp.isValid cfg (.v4 p) t
          let data ← Tcp.payload t
          if sound = true then
            match resetWords seq ack flags data.length with
            | none => .ok none
            | some (s, a, f) => do
              let out ← host.reset cfg who src port back s a f
              .ok (some out)
          else .ok none)
        (fun _ => .ok none)) =
      if v = true then
        match resetWords seq' ack' f data.length with
        | none => .ok none
        | some (x, y, z) => do
          let out ← host.reset cfg who src d' s' x y z
          .ok (some out)
      else .ok none := by
  obtain ⟨h20, hh, ht, hd⟩ := ip_accepted hp
  have hlen : (ipData p).length ≤ 65535 := by
    have := field_lt p 16 16
    unfold ipData
    rw [List.length_take]
    omega
  have hs := show_tcp cfg h20 (ipData p) hlen
  rw [h] at hs
  unfold showTcp at hs
  have ha := C24_tcp_accept (ipData p)
  by_cases hc : 20 ≤ (ipData p).length ∧ field (ipData p) 96 4 * 4 ≤ (ipData p).length
  case neg =>
    rw [if_neg hc] at ha
    rw [ha, attempt_err] at hs
    cases Outcome.ok.inj hs
  rw [if_pos hc] at ha
  obtain ⟨f1, f2, f3, f4, -, ⟨fl, f5, f6⟩, f7, f8, f9⟩ := C24_tcp_fields (ipData p) hc.1
  rw [ha, attempt_ok, f1, Outcome.ok_bind, f2, Outcome.ok_bind, f3, Outcome.ok_bind, f4, Outcome.ok_bind,
    f5, Outcome.ok_bind, f7, Outcome.ok_bind, f9, Outcome.ok_bind] at hs
  have hpay := (C24_tcp_views cfg (ipData p) (by have := cfg.width; omega) ha).2.1
  cases hv : Tcp.isValid cfg (.v4 p) (ipData p) with
  | panic => rw [hv] at hs; cases hs
  | err x => rw [hv] at hs; cases hs
  | ok good =>
    rw [hv, Outcome.ok_bind, hpay, Outcome.ok_bind] at hs
    have hs := Outcome.ok.inj hs
    injection hs with a1 a2 a3 a4 a5 a6 a7 a8 a9
    refine ⟨_, _, _, _, fl, a1, a2, a3, a4, a5, ?_⟩
    rw [ha, attempt_ok, f1, Outcome.ok_bind, f2, Outcome.ok_bind, f3, Outcome.ok_bind, f4, Outcome.ok_bind,
      f5, Outcome.ok_bind, hv, Outcome.ok_bind, hpay, Outcome.ok_bind, a8, a9]

/-- C139: the host answers the segments that come for it with the resets of RFC 793, and nothing else makes it do
anything. -/
theorem C139_refuse (cfg : Cfg) (host : Host) (b : Bytes) (hb : b.length < cfg.usizeMod) :
    (∀ who src s d seq ack flags data, host.Segment cfg.eofAdvances b who src s d seq ack flags data →
      match resetFor seq ack flags data.length with
      | none => host.refuse cfg b = .ok none
      | some (x, y, f) => ∃ out, host.refuse cfg b = .ok (some out) ∧ out.length = 54 ∧
        dissect cfg out = .ok (.frame who.octets host.mac.octets 0x0800
          (.ip ⟨host.addr.octets, src.octets, 0, 0, 0, 0, 64, 6, true⟩ (.tcp d s x y f 0 0 true [])))) ∧
    ((¬ ∃ who src s d seq ack flags data, host.Segment cfg.eofAdvances b who src s d seq ack flags data) →
      host.refuse cfg b = .ok none ∨ reading cfg.eofAdvances b = .panic ∧ host.refuse cfg b = .panic) := by
  unfold Host.refuse
  rcases opened_iff cfg host .tcp rfl b hb with ⟨who, src, hf, ho⟩ | ⟨hn, ho⟩
  · rw [ho]
    constructor
    · intro w i s d seq ack flags data h
      obtain ⟨hf', x, y, ht⟩ := (segment_iff _ _ _ _ _ _ _ _ _ _ _).1 h
      obtain ⟨rfl, rfl⟩ := hf.same hf'
      obtain ⟨s', d', seq', ack', fl, rfl, rfl, rfl, rfl, rfl, e⟩ := refuse_tcp cfg host w i hf.2.2.2.2.1 ht
      rw [← reset_words]
      rw [if_pos rfl] at e
      cases hr : resetWords seq' ack' fl data.length with
      | none =>
        rw [hr] at e
        exact e
      | some r =>
        obtain ⟨a, b, c⟩ := r
        rw [hr] at e
        obtain ⟨out, eo, h⟩ := reset_reads cfg host w i d' s' a b c
        refine ⟨out, e.trans ?_, h⟩
        simp only []
        rw [eo, Outcome.ok_bind]
    · intro hn
      have hmsg : messageReading cfg.eofAdvances (b.drop 14) = tcpReading cfg.eofAdvances (((b.drop 14).drop 12).take 4)
          (((b.drop 14).drop 16).take 4) (ipData (b.drop 14)) := by
        unfold messageReading
        have h6 : field (b.drop 14) 72 8 = 6 := hf.2.2.2.2.2.2.2.2
        rw [if_neg (by rw [h6]; decide), if_pos h6]
      have ha := C24_tcp_accept (ipData (b.drop 14))
      by_cases hc : 20 ≤ (ipData (b.drop 14)).length ∧ field (ipData (b.drop 14)) 96 4 * 4 ≤ (ipData (b.drop 14)).length
      case neg =>
        left
        rw [if_neg hc] at ha
        rw [ha, attempt_err]
      by_cases hodd : cfg.eofAdvances = true ∧ (ipData (b.drop 14)).length % 2 = 1
      case pos =>
        right
        obtain ⟨h20, -⟩ := ip_accepted hf.2.2.2.2.1
        constructor
        · unfold reading contentReading
          rw [if_neg (by have := hf.1; omega), if_pos hf.2.2.2.1, hf.2.2.2.2.1, hmsg]
          unfold tcpReading
          rw [if_pos hc, if_pos hodd]
          rfl
        · rw [if_pos hc] at ha
          obtain ⟨f1, f2, f3, f4, -, ⟨fl, f5, f6⟩, -⟩ := C24_tcp_fields (ipData (b.drop 14)) hc.1
          rw [ha, attempt_ok, f1, Outcome.ok_bind, f2, Outcome.ok_bind, f3, Outcome.ok_bind, f4, Outcome.ok_bind,
            f5, Outcome.ok_bind]
          unfold Tcp.isValid
          have hlen : (ipData (b.drop 14)).length ≤ 65535 := by
            have := field_lt (b.drop 14) 16 16
            unfold ipData
            rw [List.length_take]
            omega
          rw [C60_tcp_odd_panics cfg hodd.1 _ _ h20 hlen hodd.2]
          rfl
      left
      obtain ⟨s, d, seq, ack, flags, w, u, v, data, ht⟩ : ∃ s d seq ack flags w u v data,
          tcpReading cfg.eofAdvances (((b.drop 14).drop 12).take 4) (((b.drop 14).drop 16).take 4)
            (ipData (b.drop 14)) = .ok (.tcp s d seq ack flags w u v data) := by
        unfold tcpReading
        rw [if_pos hc, if_neg hodd]
        exact ⟨_, _, _, _, _, _, _, _, _, rfl⟩
      obtain ⟨s', d', seq', ack', fl, -, -, -, -, -, e⟩ := refuse_tcp cfg host who src hf.2.2.2.2.1 ht
      rw [e]
      split
      · rename_i hv
        rw [hv] at ht
        exact absurd ⟨who, src, _, _, _, _, _, _, (segment_iff _ _ _ _ _ _ _ _ _ _ _).2 ⟨hf, _, _, ht⟩⟩ hn
      · rfl
  · rw [ho]
    refine ⟨fun w i s d seq ack flags data h => ?_, fun _ => .inl rfl⟩
    exact absurd ((segment_iff _ _ _ _ _ _ _ _ _ _ _).1 h).1 (hn w i)

theorem host_segment_flags {eof : Bool} {host : Host} {b dst src : Bytes} {type : Nat} {shown : IpShown}
    {s d seq ack flags w u : Nat} {data : Bytes} (hr : reading eof b = .ok (.frame dst src type
      (.ip shown (.tcp s d seq ack flags w u true data)))) {who : HwAddr} {from_ : Ipv4Addr}
    {s' d' seq' ack' flags' : Nat} {data' : Bytes}
    (h : host.Segment eof b who from_ s' d' seq' ack' flags' data') : flags' = flags := by
  obtain ⟨shown', w', u', h, -⟩ := h
  rw [hr] at h
  have h := Outcome.ok.inj h
  injection h with _ _ _ h
  injection h with _ h
  injection h with _ _ _ _ h
  exact h.symm

/-- C139: no two such hosts answer one another: a reset is never answered. -/
theorem C139_no_loop (cfg : Cfg) (host other : Host) (b out : Bytes) (hb : b.length < cfg.usizeMod)
    (h : host.refuse cfg b = .ok (some out)) : other.refuse cfg out = .ok none := by
  obtain ⟨h1, h2⟩ := C139_refuse cfg host b hb
  by_cases hx : ∃ who src s d seq ack flags data, host.Segment cfg.eofAdvances b who src s d seq ack flags data
  case neg =>
    rcases h2 hx with e | ⟨-, e⟩ <;> rw [h] at e <;> cases e
  obtain ⟨who, src, s, d, seq, ack, flags, data, hx⟩ := hx
  have hh := h1 _ _ _ _ _ _ _ _ hx
  cases hr : resetFor seq ack flags data.length with
  | none => rw [hr] at hh; simp only [] at hh; rw [h] at hh; cases hh
  | some r =>
    obtain ⟨x, y, f⟩ := r
    rw [hr] at hh
    obtain ⟨out', e, hl, hd⟩ := hh
    rw [h] at e
    cases Outcome.ok.inj e
    have hf : f / 4 % 2 = 1 := by
      unfold resetFor at hr
      split at hr
      · cases hr
      split at hr <;> cases hr <;> rfl
    have hlen : out.length < cfg.usizeMod := by
      rw [hl]
      (have := cfg.width; omega)
    rw [C137_dissect cfg out hlen] at hd
    obtain ⟨g1, g2⟩ := C139_refuse cfg other out hlen
    by_cases hy : ∃ who src s d seq ack flags data, other.Segment cfg.eofAdvances out who src s d seq ack flags data
    · obtain ⟨w, i, s', d', seq', ack', flags', data', hy⟩ := hy
      have g := g1 _ _ _ _ _ _ _ _ hy
      have hfl := host_segment_flags hd hy
      unfold resetFor at g
      rw [hfl, if_pos hf] at g
      exact g
    · rcases g2 hy with e | ⟨e, -⟩
      · exact e
      · rw [hd] at e
        cases e

/-- C139: with a std whose failed `read_exact` leaves the cursor where it is, the host never fails or panics. -/
theorem C139_total (cfg : Cfg) (hstd : cfg.eofAdvances = false) (host : Host) (b : Bytes)
    (hb : b.length < cfg.usizeMod) : ∃ o, host.refuse cfg b = .ok o := by
  obtain ⟨h1, h2⟩ := C139_refuse cfg host b hb
  by_cases hx : ∃ who src s d seq ack flags data, host.Segment cfg.eofAdvances b who src s d seq ack flags data
  · obtain ⟨who, src, s, d, seq, ack, flags, data, hx⟩ := hx
    have hh := h1 _ _ _ _ _ _ _ _ hx
    cases hr : resetFor seq ack flags data.length with
    | none => rw [hr] at hh; exact ⟨none, hh⟩
    | some r =>
      rw [hr] at hh
      obtain ⟨out, e, -⟩ := hh
      exact ⟨some out, e⟩
  · rcases h2 hx with e | ⟨e, -⟩
    · exact ⟨none, e⟩
    · obtain ⟨r, hr⟩ := C137_total cfg hstd b hb
      rw [C137_dissect cfg b hb, e] at hr
      cases hr

/-- C139: a segment built with this crate for such a host, with RST clear, comes back with the reset RFC 793 says. -/
theorem C139_connect (cfg : Cfg) (host : Host) (mac : HwAddr) (addr : Ipv4Addr) (eops : List EtherOp)
    (vops : List V4Op) (tops : List TcpOp) (he : eops.filterMap EtherOp.payload? = []) (hr : ∀ op ∈ vops, op.InRange)
    (h0 : vops.filterMap V4Op.payload? = []) (h1 : (tops.filterMap TcpOp.payload?).length ≤ 1)
    (hfl : TcpOp.FlagsLast tops) (hsize : 40 + (last TcpOp.payload? [] tops).length ≤ 65535)
    (hodd : (last TcpOp.payload? [] tops).length % 2 = 0 ∨ cfg.eofAdvances = false)
    (hem : last EtherOp.source? .zero eops = mac) (hed : last EtherOp.destination? .zero eops = host.mac)
    (hva : last V4Op.source? .zero vops = addr) (hvd : last V4Op.destination? .zero vops = host.addr)
    (hrst : (last TcpOp.flags? .empty tops).contains .rst = false) :
    ∃ frame out x y f, ethernetProgram cfg Dynamic.new eops vops (.tcp tops) = .ok frame ∧
      resetFor (last TcpOp.sequence? 0 tops).toNat (last TcpOp.acknowledgment? 0 tops).toNat
        (last TcpOp.flags? .empty tops).bits.toNat (last TcpOp.payload? [] tops).length = some (x, y, f) ∧
      host.refuse cfg frame = .ok (some out) ∧
      dissect cfg out = .ok (.frame mac.octets host.mac.octets 0x0800
        (.ip ⟨host.addr.octets, addr.octets, 0, 0, 0, 0, 64, 6, true⟩
          (.tcp (last TcpOp.destination? 0 tops).toNat (last TcpOp.source? 0 tops).toNat x y f 0 0 true []))) := by
  obtain ⟨frame, e, hd⟩ := C137_built_tcp cfg eops vops tops he hr h0 h1 hfl hsize hodd
  have hb : frame.length < cfg.usizeMod := by
    obtain ⟨f, ef, hf⟩ := tcp_frame_length cfg eops vops tops he hr h0 h1 hfl hsize hodd
    rw [e] at ef
    rw [Outcome.ok.inj ef, hf]
    (have := cfg.width; omega)
  rw [C137_dissect cfg frame hb] at hd
  have h := (C139_refuse cfg host frame hb).1 mac addr _ _ _ _ _ _
    ⟨_, _, _, by rw [hd, askedFrame, hed, hem], by rw [← hva]; rfl, by rw [← hvd]; rfl, rfl⟩
  have hc : (last TcpOp.flags? .empty tops).contains .rst =
    decide ((last TcpOp.flags? .empty tops).bits.toNat / 4 % 2 = 1) := contains_bit _ .rst
  rw [hrst] at hc
  have hc := of_decide_eq_false hc.symm
  cases hx : resetFor (last TcpOp.sequence? 0 tops).toNat (last TcpOp.acknowledgment? 0 tops).toNat
      (last TcpOp.flags? .empty tops).bits.toNat (last TcpOp.payload? [] tops).length with
  | none =>
    unfold resetFor at hx
    rw [if_neg hc] at hx
    split at hx <;> cases hx
  | some r =>
    obtain ⟨x, y, f⟩ := r
    rw [hx] at h
    obtain ⟨out, eo, -, h⟩ := h
    exact ⟨frame, out, x, y, f, e, rfl, eo, h⟩

/-! ## Concrete cases -/

def sampleHost : Host where
  mac := ⟨2, 0, 0, 0, 0, 2⟩
  addr := ⟨10, 0, 0, 2⟩

/-- A connection attempt. -/
def sampleSyn : List TcpOp := [.source 4000, .destination 80, .sequence 0xffffffff, .window 512, .flags .syn]

example (cfg : Cfg) := C139_connect cfg sampleHost ⟨2, 0, 0, 0, 0, 1⟩ ⟨10, 0, 0, 1⟩ Sample.eops Sample.vops sampleSyn
  (by call_by_call) (by call_by_call) (by call_by_call) (Nat.zero_le 1) (by intro op h; cases h) (by decide)
  (.inl rfl) rfl rfl rfl rfl (by decide)

/-- The sequence number after the SYN is acknowledged. -/
example : resetFor 0xffffffff 7 2 0 = some (0, 0, 20) := by decide

/-- What is acknowledged is where the reset is. -/
example : resetFor 5 1000 0x18 3 = some (1000, 0, 4) := by decide

/-- A SYN for the host. -/
def sampleSynFrame : Bytes :=
  [2, 0, 0, 0, 0, 2, 2, 0, 0, 0, 0, 1, 8, 0,
    69, 0, 0, 40, 0, 7, 0, 0, 64, 6, 102, 199, 10, 0, 0, 1, 10, 0, 0, 2,
    15, 160, 0, 80, 0, 0, 0, 9, 0, 0, 0, 0, 80, 2, 2, 0, 137, 231, 0, 0]

theorem sample_segment (eof : Bool) : sampleHost.Segment eof sampleSynFrame ⟨2, 0, 0, 0, 0, 1⟩ ⟨10, 0, 0, 1⟩
    4000 80 9 0 2 [] :=
  ⟨⟨[10, 0, 0, 1], [10, 0, 0, 2], 0, 0, 7, 0, 64, 6, true⟩, 512, 0, by cases eof <;> decide +kernel, rfl, rfl, rfl⟩

example (cfg : Cfg) : ∃ out, sampleHost.refuse cfg sampleSynFrame = .ok (some out) ∧ sampleHost.refuse cfg out = .ok none := by
  have hb : sampleSynFrame.length < cfg.usizeMod := (show 54 < cfg.usizeMod by have := cfg.width; omega)
  obtain ⟨out, e, -⟩ := (C139_refuse cfg sampleHost sampleSynFrame hb).1 _ _ _ _ _ _ _ _ (sample_segment cfg.eofAdvances)
  exact ⟨out, e, C139_no_loop cfg sampleHost sampleHost sampleSynFrame out hb e⟩

example (cfg : Cfg) (h : cfg.eofAdvances = false) := C139_total cfg h sampleHost sampleSynFrame
  (show 54 < cfg.usizeMod by have := cfg.width; omega)

end Verif.Props

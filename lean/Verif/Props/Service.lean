import Verif.Props.Dissect

/-!
# A UDP service (C138)

A server answers the requests for its port, by building the reply; what it takes for a request is said in terms of what
is to be read in the frame (`Spec/Dissect`).
-/

namespace Verif.Props
open Verif Verif.Spec

/-- Where the service is, and what it answers. -/
structure Service where
  mac : HwAddr
  addr : Ipv4Addr
  port : U16
  answer : Bytes → Option Bytes

/-- The reply.

```text
ether::Builder::default()
    .destination(who)?.source(mac)?
    .ip()?.v4()?.ttl(64)?.source(addr)?.destination(from)?
    .udp()?.source(port)?.destination(back)?.payload(&data)?
    .build()
```
-/
def Service.reply (cfg : Cfg) (sv : Service) (who : HwAddr) (src : Ipv4Addr) (back : U16) (data : Bytes) : Outcome Bytes :=
  ethernetProgram cfg Dynamic.new [.destination who, .source sv.mac] [.ttl 64, .source sv.addr, .destination src]
    (.udp [.source sv.port, .destination back, .payload data])

/-- The server.

```text
let frame = match ether::Packet::new(bytes) { Ok(f) => f, Err(_) => return Ok(None) };
if frame.destination() != mac || frame.protocol() != ether::Protocol::Ipv4 { return Ok(None); }
let ip = match ip::v4::Packet::new(frame.payload()) { Ok(p) => p, Err(_) => return Ok(None) };
if !ip.is_valid() || ip.destination() != addr || ip.protocol() != ip::Protocol::Udp { return Ok(None); }
let udp = match udp::Packet::new(ip.payload()) { Ok(u) => u, Err(_) => return Ok(None) };
if !udp.is_valid(&ip::Packet::from(&ip)) || udp.destination() != port { return Ok(None); }
match answer(udp.payload()) {
    None => Ok(None),
    Some(data) => Ok(Some(reply(frame.source(), ip.source(), udp.source(), data)?)),
}
```
-/
def Service.serve (cfg : Cfg) (sv : Service) (b : Bytes) : Outcome (Option Bytes) :=
  attempt (Ether.new b)
    (fun f => do
      let dst ← Ether.destination f
      let who ← Ether.source f
      let type ← Ether.protocol f
      let body ← Ether.payload f
      if dst = sv.mac ∧ type = .ipv4 then
        attempt (V4.new body)
          (fun p => do
            let src ← V4.source p
            let addr ← V4.destination p
            let proto ← V4.protocol p
            let good ← V4.isValid cfg p
            let inside ← V4.payload p
            if good = true ∧ addr = sv.addr ∧ proto = .udp then
              attempt (Udp.new inside)
                (fun u => do
                  let back ← Udp.source u
                  let port ← Udp.destination u
                  let sound ← Udp.isValid cfg (.v4 p) u
                  let data ← Udp.payload u
                  if sound = true ∧ port = sv.port then
                    match sv.answer data with
                    | none => .ok none
                    | some reply => do
                      let out ← sv.reply cfg who src back reply
                      .ok (some out)
                  else .ok none)
                (fun _ => .ok none)
            else .ok none)
          (fun _ => .ok none)
      else .ok none)
    (fun _ => .ok none)

/-- What is to be read in `b` is a UDP datagram for the service, sound at both layers, from `who`, `src` and port
`back`. -/
def Service.Request (eof : Bool) (sv : Service) (b : Bytes) (who : HwAddr) (src : Ipv4Addr) (back : U16) (data : Bytes) :
    Prop :=
  ∃ (shown : IpShown) (length : Nat),
    reading eof b = .ok (.frame sv.mac.octets who.octets 0x0800 (.ip shown (.udp back.toNat sv.port.toNat length true
      data))) ∧
    shown.src = src.octets ∧ shown.dst = sv.addr.octets ∧ shown.good = true

theorem hw_octets {a b : HwAddr} (h : a.octets = b.octets) : a = b := by
  cases a; cases b
  simp only [HwAddr.octets, List.cons.injEq, and_true] at h
  obtain ⟨rfl, rfl, rfl, rfl, rfl, rfl⟩ := h
  rfl

theorem ip_octets {a b : Ipv4Addr} (h : a.octets = b.octets) : a = b := by
  cases a; cases b
  simp only [Ipv4Addr.octets, List.cons.injEq, and_true] at h
  obtain ⟨rfl, rfl, rfl, rfl⟩ := h
  rfl

/-- Only UDP is shown as UDP. -/
theorem message_udp {eof : Bool} {p : Bytes} {a b c : Nat} {g : Bool} {d : Bytes}
    (h : messageReading eof p = .ok (.udp a b c g d)) : field p 72 8 = 17 ∧
      udpReading eof ((p.drop 12).take 4) ((p.drop 16).take 4) (ipData p) = .udp a b c g d := by
  unfold messageReading at h
  split at h
  · exact ⟨by assumption, Outcome.ok.inj h⟩
  split at h
  · unfold tcpReading at h
    split at h
    · split at h
      · cases h
      · cases Outcome.ok.inj h
    · cases Outcome.ok.inj h
  split at h
  · have h := Outcome.ok.inj h
    unfold icmpReading at h
    simp only [] at h
    repeat' split at h
    all_goals cases h
  · cases Outcome.ok.inj h

/-- Requests, and what the server does, in terms of the bits. -/
theorem request_iff (eof : Bool) (sv : Service) (b : Bytes) (who : HwAddr) (src : Ipv4Addr) (back : U16)
    (data : Bytes) : sv.Request eof b who src back data ↔
      14 ≤ b.length ∧ b.take 6 = sv.mac.octets ∧ (b.drop 6).take 6 = who.octets ∧ field b 96 16 = 0x0800 ∧
      ipError (b.drop 14) = none ∧ (ipShown (b.drop 14)).src = src.octets ∧ (ipShown (b.drop 14)).dst = sv.addr.octets ∧
      (ipShown (b.drop 14)).good = true ∧ field (b.drop 14) 72 8 = 17 ∧
      ∃ n, udpReading eof (((b.drop 14).drop 12).take 4) (((b.drop 14).drop 16).take 4) (ipData (b.drop 14)) =
        .udp back.toNat sv.port.toNat n true data := by
  constructor
  · rintro ⟨shown, n, e, h1, h2, h3⟩
    unfold reading at e
    split at e
    · cases Outcome.ok.inj e
    cases hc : contentReading eof (field b 96 16) (b.drop 14) with
    | panic => rw [hc] at e; cases e
    | err x => rw [hc] at e; cases e
    | ok c =>
      rw [hc, Outcome.ok_bind] at e
      have e := Outcome.ok.inj e
      injection e with e1 e2 e3 e4
      subst e4
      unfold contentReading at hc
      rw [if_pos e3] at hc
      cases hp : ipError (b.drop 14) with
      | some x => rw [hp] at hc; cases Outcome.ok.inj hc
      | none =>
        rw [hp] at hc
        simp only [] at hc
        cases hm : messageReading eof (b.drop 14) with
        | panic => rw [hm] at hc; cases hc
        | err x => rw [hm] at hc; cases hc
        | ok m =>
          rw [hm, Outcome.ok_bind] at hc
          have hc := Outcome.ok.inj hc
          injection hc with c1 c2
          subst c1; subst c2
          obtain ⟨m1, m2⟩ := message_udp hm
          exact ⟨by omega, e1, e2, e3, rfl, h1, h2, h3, m1, n, m2⟩
  · rintro ⟨l, e1, e2, e3, hp, h1, h2, h3, m1, n, m2⟩
    refine ⟨ipShown (b.drop 14), n, ?_, h1, h2, h3⟩
    unfold reading contentReading messageReading
    rw [if_neg (by omega), if_pos e3, hp, if_pos m1, m2, e1, e2, e3]
    rfl

/-- The server behind a request: the answer, if there is one, in a reply. -/
def Service.respond (cfg : Cfg) (sv : Service) (who : HwAddr) (src : Ipv4Addr) (back : U16) (data : Bytes) :
    Outcome (Option Bytes) :=
  match sv.answer data with
  | none => .ok none
  | some r => do
    let out ← sv.reply cfg who src back r
    .ok (some out)

theorem proto_udp (p : Bytes) : IpProtocol.ofWire (BitVec.ofNat 8 (field p 72 8)) = .udp ↔ field p 72 8 = 17 := by
  constructor
  · intro h
    have hw := proto_wire (BitVec.ofNat 8 (field p 72 8))
    have hn := field_value p 72 8 (Nat.le_refl 8)
    rw [h] at hw
    rw [← hw] at hn
    exact hn.symm
  · intro h
    rw [h]
    decide

theorem proto_ipv4 (b : Bytes) : EtherProtocol.ofWire (BitVec.ofNat 16 (field b 96 16)) = .ipv4 ↔ field b 96 16 = 0x0800 := by
  constructor
  · intro h
    have hw := ether_wire (BitVec.ofNat 16 (field b 96 16))
    have hn := field_value b 96 16 (Nat.le_refl 16)
    rw [h] at hw
    rw [← hw] at hn
    exact hn.symm
  · intro h
    rw [h]
    decide

/-- C138: the server answers a request, and nothing else makes it do anything. -/
theorem C138_serve (cfg : Cfg) (sv : Service) (b : Bytes) (hb : b.length < cfg.usizeMod) :
    (∀ who src back data, sv.Request cfg.eofAdvances b who src back data →
      sv.serve cfg b = sv.respond cfg who src back data) ∧
    ((¬ ∃ who src back data, sv.Request cfg.eofAdvances b who src back data) → sv.serve cfg b = .ok none) := by
  suffices h : (∃ who src back data, sv.Request cfg.eofAdvances b who src back data ∧
      (∀ who' src' back' data', sv.Request cfg.eofAdvances b who' src' back' data' →
        who' = who ∧ src' = src ∧ back' = back ∧ data' = data) ∧
      sv.serve cfg b = sv.respond cfg who src back data) ∨
      ((¬ ∃ who src back data, sv.Request cfg.eofAdvances b who src back data) ∧ sv.serve cfg b = .ok none) by
    rcases h with ⟨who, src, back, data, hr, hu, hs⟩ | ⟨hn, hs⟩
    · refine ⟨fun w s k d h => ?_, fun h => absurd ⟨who, src, back, data, hr⟩ h⟩
      obtain ⟨rfl, rfl, rfl, rfl⟩ := hu w s k d h
      exact hs
    · exact ⟨fun w s k d h => absurd ⟨w, s, k, d, h⟩ hn, fun _ => hs⟩
  unfold Service.serve
  have ha := C10_ether_accept b
  by_cases h14 : 14 ≤ b.length
  case neg =>
    right
    rw [if_neg h14] at ha
    rw [ha]
    exact ⟨fun ⟨w, s, k, d, h⟩ => h14 ((request_iff _ _ _ _ _ _ _).1 h).1, rfl⟩
  rw [if_pos h14] at ha
  obtain ⟨⟨d, f1, g1⟩, ⟨who, f2, g2⟩, f3, -, f5, -⟩ := C10_ether_views cfg b hb ha
  rw [ha, attempt_ok, f1, Outcome.ok_bind, f2, Outcome.ok_bind, f3, Outcome.ok_bind, f5, Outcome.ok_bind]
  by_cases c1 : d = sv.mac ∧ EtherProtocol.ofWire (BitVec.ofNat 16 (field b 96 16)) = .ipv4
  case neg =>
    right
    rw [if_neg c1]
    refine ⟨fun ⟨w, s, k, dd, h⟩ => ?_, rfl⟩
    obtain ⟨-, e1, -, e3, -⟩ := (request_iff _ _ _ _ _ _ _).1 h
    exact c1 ⟨hw_octets (g1.trans e1), (proto_ipv4 b).2 e3⟩
  rw [if_pos c1, ip_accept (b.drop 14)]
  cases hp : ipError (b.drop 14) with
  | some x =>
    right
    refine ⟨fun ⟨w, s, k, dd, h⟩ => ?_, rfl⟩
    obtain ⟨-, -, -, -, e4, -⟩ := (request_iff _ _ _ _ _ _ _).1 h
    rw [hp] at e4
    cases e4
  | none =>
    obtain ⟨h20, hh, ht, hd⟩ := ip_accepted hp
    obtain ⟨-, -, -, -, -, -, -, -, i9, -, ⟨src, i11, j11⟩, ⟨addr, i12, j12⟩⟩ := C14_v4_fields (b.drop 14) h20
    have hv : V4.isValid cfg (b.drop 14) = .ok (ipShown (b.drop 14)).good := v4_sum cfg h20 hh
    simp only []
    rw [attempt_ok, i11, Outcome.ok_bind, i12, Outcome.ok_bind, i9, Outcome.ok_bind, hv, Outcome.ok_bind, hd,
      Outcome.ok_bind]
    by_cases c2 : (ipShown (b.drop 14)).good = true ∧ addr = sv.addr ∧
        IpProtocol.ofWire (BitVec.ofNat 8 (field (b.drop 14) 72 8)) = .udp
    case neg =>
      right
      rw [if_neg c2]
      refine ⟨fun ⟨w, s, k, dd, h⟩ => ?_, rfl⟩
      obtain ⟨-, -, -, -, -, -, e6, e7, e8, -⟩ := (request_iff _ _ _ _ _ _ _).1 h
      exact c2 ⟨e7, ip_octets (j12.trans e6), (proto_udp _).2 e8⟩
    rw [if_pos c2]
    have hua := (C21_udp_accept (ipData (b.drop 14))).2
    by_cases c3 : 8 ≤ (ipData (b.drop 14)).length ∧ field (ipData (b.drop 14)) 32 16 ≤ (ipData (b.drop 14)).length
    case neg =>
      right
      rw [if_neg c3] at hua
      rw [hua]
      refine ⟨fun ⟨w, s, k, dd, h⟩ => ?_, rfl⟩
      obtain ⟨-, -, -, -, -, -, -, -, -, n, e9⟩ := (request_iff _ _ _ _ _ _ _).1 h
      unfold udpReading at e9
      rw [if_neg c3] at e9
      cases e9
    rw [if_pos c3] at hua
    obtain ⟨u1, u2, u3, -⟩ := C21_udp_fields (ipData (b.drop 14)) c3.1
    rw [hua, attempt_ok, u1, Outcome.ok_bind, u2, Outcome.ok_bind, udp_good cfg h20 c3.1, Outcome.ok_bind,
      (C21_udp_views _ hua).2.1, Outcome.ok_bind]
    have hread : ∀ k n dd, udpReading cfg.eofAdvances (((b.drop 14).drop 12).take 4) (((b.drop 14).drop 16).take 4)
        (ipData (b.drop 14)) = .udp k sv.port.toNat n true dd → k = field (ipData (b.drop 14)) 0 16 ∧
        field (ipData (b.drop 14)) 16 16 = sv.port.toNat ∧
        udpGood cfg.eofAdvances (((b.drop 14).drop 12).take 4) (((b.drop 14).drop 16).take 4) (ipData (b.drop 14)) = true ∧
        dd = ((ipData (b.drop 14)).drop 8).take (field (ipData (b.drop 14)) 32 16 - 8) := by
      intro k n dd h
      unfold udpReading at h
      rw [if_pos c3] at h
      injection h with a1 a2 a3 a4 a5
      exact ⟨a1.symm, a2, a4, a5.symm⟩
    by_cases c4 : udpGood cfg.eofAdvances (((b.drop 14).drop 12).take 4) (((b.drop 14).drop 16).take 4)
        (ipData (b.drop 14)) = true ∧ BitVec.ofNat 16 (field (ipData (b.drop 14)) 16 16) = sv.port
    case neg =>
      right
      rw [if_neg c4]
      refine ⟨fun ⟨w, s, k, dd, h⟩ => ?_, rfl⟩
      obtain ⟨-, -, -, -, -, -, -, -, -, n, e9⟩ := (request_iff _ _ _ _ _ _ _).1 h
      obtain ⟨-, a2, a3, -⟩ := hread _ _ _ e9
      exact c4 ⟨a3, by rw [a2]; exact BitVec.eq_of_toNat_eq (by simp)⟩
    rw [if_pos c4]
    left
    have hport : field (ipData (b.drop 14)) 16 16 = sv.port.toNat := by
      rw [← c4.2, field_value _ _ _ (Nat.le_refl 16)]
    refine ⟨who, src, BitVec.ofNat 16 (field (ipData (b.drop 14)) 0 16),
      ((ipData (b.drop 14)).drop 8).take (field (ipData (b.drop 14)) 32 16 - 8), ?_, ?_, rfl⟩
    · refine (request_iff _ _ _ _ _ _ _).2 ⟨h14, ?_, g2.symm, (proto_ipv4 b).1 c1.2, hp, j11.symm, ?_, c2.1,
        (proto_udp _).1 c2.2.2, field (ipData (b.drop 14)) 32 16, ?_⟩
      · rw [← g1, c1.1]
      · rw [← c2.2.1]
        exact j12.symm
      · unfold udpReading
        rw [if_pos c3, c4.1, hport, field_value _ _ _ (Nat.le_refl 16)]
    · intro w s k dd h
      obtain ⟨-, -, e2, -, -, e5, -, -, -, n, e9⟩ := (request_iff _ _ _ _ _ _ _).1 h
      obtain ⟨a1, -, -, a4⟩ := hread _ _ _ e9
      exact ⟨hw_octets (e2.symm.trans g2.symm), ip_octets (e5.symm.trans j11.symm), by rw [← a1]; simp, a4⟩

/-- C138 with C137: the reply is what the dissector shows it to be. -/
theorem C138_reply (cfg : Cfg) (sv : Service) (who : HwAddr) (src : Ipv4Addr) (back : U16) (data : Bytes)
    (hsize : data.length ≤ 65507) :
    ∃ out, sv.reply cfg who src back data = .ok out ∧
      dissect cfg out = .ok (.frame who.octets sv.mac.octets 0x0800
        (.ip ⟨sv.addr.octets, src.octets, 0, 0, 0, 0, 64, 17, true⟩
          (.udp sv.port.toNat back.toNat (8 + data.length) true data))) := by
  obtain ⟨out, e, h⟩ := C137_built_udp cfg [.destination who, .source sv.mac]
    [.ttl 64, .source sv.addr, .destination src] [.source sv.port, .destination back, .payload data] rfl
    (by intro op h; simp only [List.mem_cons, List.not_mem_nil, or_false] at h
        rcases h with rfl | rfl | rfl <;> simp [V4Op.InRange]) rfl (Nat.le_refl 1)
    (show 28 + data.length ≤ 65535 by omega)
  exact ⟨out, e, h⟩

/-- C138: the server never fails or panics, whatever it is sent. -/
theorem C138_total (cfg : Cfg) (sv : Service) (b : Bytes) (hb : b.length < cfg.usizeMod)
    (hs : ∀ data r, sv.answer data = some r → r.length ≤ 65507) : ∃ o, sv.serve cfg b = .ok o := by
  by_cases h : ∃ who src back data, sv.Request cfg.eofAdvances b who src back data
  · obtain ⟨who, src, back, data, h⟩ := h
    rw [(C138_serve cfg sv b hb).1 who src back data h]
    unfold Service.respond
    cases ha : sv.answer data with
    | none => exact ⟨none, rfl⟩
    | some r =>
      obtain ⟨out, e, -⟩ := C138_reply cfg sv who src back r (hs data r ha)
      exact ⟨some out, by simp only []; rw [e, Outcome.ok_bind]⟩
  · exact ⟨none, (C138_serve cfg sv b hb).2 h⟩

/-- The length of a frame around a UDP datagram. -/
theorem udp_frame_length (cfg : Cfg) (eops : List EtherOp) (vops : List V4Op) (uops : List UdpOp)
    (he : eops.filterMap EtherOp.payload? = []) (hr : ∀ op ∈ vops, op.InRange)
    (h0 : vops.filterMap V4Op.payload? = []) (h1 : (uops.filterMap UdpOp.payload?).length ≤ 1)
    (hsize : 28 + (last UdpOp.payload? [] uops).length ≤ 65535) :
    ∃ frame, ethernetProgram cfg Dynamic.new eops vops (.udp uops) = .ok frame ∧
      frame.length = 42 + (last UdpOp.payload? [] uops).length := by
  obtain ⟨out, d, e, hv, hu⟩ := C45_udp_build cfg vops uops hr h0 h1 hsize
  have hi : (Inner.udp uops).Sane cfg := single_sane (fun v hv => hv) h1 (by omega)
  have hc := C49_stack_compose cfg eops vops (.udp uops) he (v4_sane_of_none h0) hi (fun h => (by cases h))
  rw [e] at hc
  obtain ⟨frame, ef, hf⟩ := hc
  refine ⟨frame, ef, ?_⟩
  have hs := hv.size
  have hd := hu.size
  rw [hf.bytes]
  simp only [ethernetFrame, List.length_append, HwAddr.octets, List.length_cons, List.length_nil, be16]
  omega

/-- The server behind a request built with this crate, by a client at `mac`, `addr` and `port`. -/
theorem serve_built (cfg : Cfg) (sv : Service) (mac : HwAddr) (addr : Ipv4Addr) (port : U16) (eops : List EtherOp)
    (vops : List V4Op) (uops : List UdpOp) (he : eops.filterMap EtherOp.payload? = []) (hr : ∀ op ∈ vops, op.InRange)
    (h0 : vops.filterMap V4Op.payload? = []) (h1 : (uops.filterMap UdpOp.payload?).length ≤ 1)
    (hsize : 28 + (last UdpOp.payload? [] uops).length ≤ 65535)
    (hem : last EtherOp.source? .zero eops = mac) (hed : last EtherOp.destination? .zero eops = sv.mac)
    (hva : last V4Op.source? .zero vops = addr) (hvd : last V4Op.destination? .zero vops = sv.addr)
    (hup : last UdpOp.source? 0 uops = port) (hud : last UdpOp.destination? 0 uops = sv.port) :
    ∃ frame, ethernetProgram cfg Dynamic.new eops vops (.udp uops) = .ok frame ∧
      sv.serve cfg frame = sv.respond cfg mac addr port (last UdpOp.payload? [] uops) := by
  obtain ⟨frame, e, hd⟩ := C137_built_udp cfg eops vops uops he hr h0 h1 hsize
  have hb : frame.length < cfg.usizeMod := by
    obtain ⟨f, ef, hf⟩ := udp_frame_length cfg eops vops uops he hr h0 h1 hsize
    rw [e] at ef
    rw [Outcome.ok.inj ef, hf]
    (have := cfg.width; omega)
  rw [C137_dissect cfg frame hb] at hd
  refine ⟨frame, e, ?_⟩
  rw [(C138_serve cfg sv frame hb).1 mac addr port (last UdpOp.payload? [] uops)
    ⟨_, _, by rw [hd, askedFrame, hed, hem, hup, hud], by rw [← hva]; rfl, by rw [← hvd]; rfl, rfl⟩]

/-- C138: a request built with this crate, by a client at `mac`, `addr` and `port`, comes back answered. -/
theorem C138_round_trip (cfg : Cfg) (sv : Service) (mac : HwAddr) (addr : Ipv4Addr) (port : U16) (eops : List EtherOp)
    (vops : List V4Op) (uops : List UdpOp) (he : eops.filterMap EtherOp.payload? = []) (hr : ∀ op ∈ vops, op.InRange)
    (h0 : vops.filterMap V4Op.payload? = []) (h1 : (uops.filterMap UdpOp.payload?).length ≤ 1)
    (hsize : 28 + (last UdpOp.payload? [] uops).length ≤ 65535)
    (hem : last EtherOp.source? .zero eops = mac) (hed : last EtherOp.destination? .zero eops = sv.mac)
    (hva : last V4Op.source? .zero vops = addr) (hvd : last V4Op.destination? .zero vops = sv.addr)
    (hup : last UdpOp.source? 0 uops = port) (hud : last UdpOp.destination? 0 uops = sv.port) (r : Bytes)
    (ha : sv.answer (last UdpOp.payload? [] uops) = some r) (hlen : r.length ≤ 65507) :
    ∃ frame out, ethernetProgram cfg Dynamic.new eops vops (.udp uops) = .ok frame ∧
      sv.serve cfg frame = .ok (some out) ∧
      dissect cfg out = .ok (.frame mac.octets sv.mac.octets 0x0800
        (.ip ⟨sv.addr.octets, addr.octets, 0, 0, 0, 0, 64, 17, true⟩
          (.udp sv.port.toNat port.toNat (8 + r.length) true r))) := by
  obtain ⟨frame, e, h⟩ := serve_built cfg sv mac addr port eops vops uops he hr h0 h1 hsize hem hed hva hvd hup hud
  obtain ⟨out, eo, ho⟩ := C138_reply cfg sv mac addr port r hlen
  refine ⟨frame, out, e, ?_, ho⟩
  rw [h]
  unfold Service.respond
  rw [ha]
  simp only []
  rw [eo, Outcome.ok_bind]

/-! ## Concrete cases -/

/-- Port 4000 of 10.0.0.2: echoes what is not empty. -/
def sampleService : Service where
  mac := ⟨2, 0, 0, 0, 0, 2⟩
  addr := ⟨10, 0, 0, 2⟩
  port := 4000
  answer := fun data => if data = [] then none else some (data.reverse)

example (cfg : Cfg) := C138_reply cfg sampleService ⟨2, 0, 0, 0, 0, 1⟩ ⟨10, 0, 0, 1⟩ 53 [4, 3, 2, 1] (by decide)

example (cfg : Cfg) := C138_round_trip cfg sampleService ⟨2, 0, 0, 0, 0, 1⟩ ⟨10, 0, 0, 1⟩ 53 Sample.eops Sample.vops
  Sample.uops (by call_by_call) (by call_by_call) (by call_by_call) (by call_by_call) (by call_by_call) rfl rfl rfl rfl
  rfl rfl [4, 3, 2, 1] rfl (by decide)

/-- A datagram for it, with `ck` for the first byte of the UDP checksum. -/
def sampleRequest (ck : U8) : Bytes :=
  [2, 0, 0, 0, 0, 2, 2, 0, 0, 0, 0, 1, 8, 0,
    69, 0, 0, 30, 0, 7, 0, 0, 64, 17, 102, 198, 10, 0, 0, 1, 10, 0, 0, 2,
    0, 53, 15, 160, 0, 10, ck, 0, 1, 2]

example (eof : Bool) : sampleService.Request eof (sampleRequest 219) ⟨2, 0, 0, 0, 0, 1⟩ ⟨10, 0, 0, 1⟩ 53 [1, 2] :=
  ⟨⟨[10, 0, 0, 1], [10, 0, 0, 2], 0, 0, 7, 0, 64, 17, true⟩, 10, by cases eof <;> decide +kernel, rfl, rfl, rfl⟩

example (cfg : Cfg) : ∃ out, sampleService.serve cfg (sampleRequest 219) = .ok (some out) := by
  obtain ⟨out, e, -⟩ := C138_reply cfg sampleService ⟨2, 0, 0, 0, 0, 1⟩ ⟨10, 0, 0, 1⟩ 53 [2, 1] (by decide)
  refine ⟨out, ?_⟩
  rw [(C138_serve cfg sampleService (sampleRequest 219) (show 44 < cfg.usizeMod by have := cfg.width; omega)).1
    ⟨2, 0, 0, 0, 0, 1⟩ ⟨10, 0, 0, 1⟩ 53 [1, 2] ⟨⟨[10, 0, 0, 1], [10, 0, 0, 2], 0, 0, 7, 0, 64, 17, true⟩, 10,
      by cases cfg.eofAdvances <;> decide +kernel, rfl, rfl, rfl⟩]
  show (do let out ← sampleService.reply cfg _ _ _ [2, 1]; .ok (some out)) = _
  rw [e, Outcome.ok_bind]

/-- One byte at most is answered. -/
def tinyService : Service := { sampleService with answer := fun data => some (data.take 1) }

example (cfg : Cfg) := C138_total cfg tinyService (sampleRequest 219) (show 44 < cfg.usizeMod by have := cfg.width; omega)
  (by intro data r h; cases h; exact Nat.le_trans (List.length_take_le 1 data) (by decide))

/-- With a wrong checksum it is not a request. -/
example (cfg : Cfg) : sampleService.serve cfg (sampleRequest 0) = .ok none := by
  refine (C138_serve cfg sampleService (sampleRequest 0) (show 44 < cfg.usizeMod by have := cfg.width; omega)).2 ?_
  rintro ⟨who, src, back, data, h⟩
  obtain ⟨-, -, -, -, -, -, -, -, -, n, h⟩ := (request_iff _ _ _ _ _ _ _).1 h
  have hg : udpReading cfg.eofAdvances ((((sampleRequest 0).drop 14).drop 12).take 4)
      ((((sampleRequest 0).drop 14).drop 16).take 4) (ipData ((sampleRequest 0).drop 14)) = .udp 53 4000 10 false [1, 2] := by
    cases cfg.eofAdvances <;> decide +kernel
  rw [hg] at h
  injection h with _ _ _ h _
  cases h

end Verif.Props

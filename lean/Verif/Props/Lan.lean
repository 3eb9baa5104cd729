import Verif.Props.Ping

/-!
# Routers and hosts on Ethernets (C135)

A station takes the frames addressed to it, works on the IPv4 packet inside in place, through `payload_mut()`, and
sends the frame on to the next station.
-/

namespace Verif.Props
open Verif Verif.Spec

/-- `work` is what the station does to the packet: a router (`hop`), a host that answers pings (`pong`), … -/
structure Station where
  mac : HwAddr
  next : HwAddr
  work : Bytes → Outcome (Option Bytes)

/-- One station.

```text
let mut frame = ether::Packet::new(buffer)?;
if frame.destination() == mac && frame.protocol() == ether::Protocol::Ipv4 {
    if work(frame.payload_mut())? {
        frame.set_destination(next)?.set_source(mac)?;
        // send it
    }
}
// else nothing is sent
```
-/
def Station.handle (st : Station) (b : Bytes) : Outcome (Option Bytes) := do
  let f ← Ether.new b
  let d ← Ether.destination f
  let proto ← Ether.protocol f
  if d = st.mac ∧ proto = .ipv4 then do
    let p ← Ether.payload f
    match st.work p with
    | .ok none => .ok none
    | .ok (some q) =>
      match Mut.chain [Kind.inPayload .ether fun _ => (.ok (), q), Ether.setDestination st.next,
          Ether.setSource st.mac] f with
      | (.ok (), f') => .ok (some f')
      | (.err e, _) => .err e
      | (.panic, _) => .panic
    | .err e => .err e
    | .panic => .panic
  else .ok none

/-- Stations in a row. -/
def walk : List Station → Bytes → Outcome (Option Bytes)
  | [], b => .ok (some b)
  | st :: sts, b => do
    let r ← st.handle b
    match r with
    | none => .ok none
    | some b' => walk sts b'

/-- What they do to the packet, one after another. -/
def works : List Station → Bytes → Outcome (Option Bytes)
  | [], p => .ok (some p)
  | st :: sts, p => do
    let r ← st.work p
    match r with
    | none => .ok none
    | some q => works sts q

/-- Every station sends to the one behind it; frames for `first` reach the first one. -/
def Linked : HwAddr → List Station → Prop
  | _, [] => True
  | first, st :: sts => st.mac = first ∧ Linked st.next sts

/-- The addresses of the frame behind the last station. -/
def lastHop : HwAddr × HwAddr → List Station → HwAddr × HwAddr
  | a, [] => a
  | _, st :: sts => lastHop (st.next, st.mac) sts

/-- An Ethernet frame with an IPv4 packet. -/
def ipFrame (a : HwAddr × HwAddr) (p : Bytes) : Bytes := ethernetFrame a.1.octets a.2.octets 0x0800 p

/-! ## One station -/

theorem rewrite_frame (d s d' s' : HwAddr) (p q : Bytes) :
    Mut.chain [Kind.inPayload .ether fun _ => (.ok (), q), Ether.setDestination d', Ether.setSource s'] (ipFrame (d, s) p) =
      (.ok (), ipFrame (d', s') q) := by
  have hl : ∀ (d s : HwAddr) (p : Bytes), (ipFrame (d, s) p).length = 14 + p.length := by
    intro d s p; simp [ipFrame, ethernetFrame, HwAddr.octets, be16]; omega
  have h1 : Kind.inPayload .ether (fun _ => ((.ok () : Outcome Unit), q)) (ipFrame (d, s) p) = (.ok (), ipFrame (d, s) q) := by
    have e1 : Kind.split .ether (ipFrame (d, s) p) = .ok ((ipFrame (d, s) p).take 14, (ipFrame (d, s) p).drop 14) :=
      splitAt_ok (b := ipFrame (d, s) p) (i := 14) (by rw [hl]; omega)
    have e2 : Kind.payloadAt .ether (ipFrame (d, s) p) = .ok 14 := rfl
    unfold Kind.inPayload
    rw [e1, e2]
    simp only [List.length_drop, hl]
    rw [List.drop_eq_nil_of_le (by rw [hl]; omega)]
    simp only [List.append_nil]
    rfl
  have h2 : Ether.setDestination d' (ipFrame (d, s) q) = (.ok (), ipFrame (d', s) q) := by
    have e := copyRange_ok (b := ipFrame (d, s) q) (i := 0) (j := 6) (bs := d'.octets) rfl (by rw [hl]; omega)
    exact e
  have h3 : Ether.setSource s' (ipFrame (d', s) q) = (.ok (), ipFrame (d', s') q) := by
    have e := copyRange_ok (b := ipFrame (d', s) q) (i := 6) (j := 12) (bs := s'.octets) rfl (by rw [hl]; omega)
    exact e
  simp only [Mut.chain]
  rw [Mut.bind_ok h1, Mut.bind_ok h2, Mut.bind_ok h3]
  rfl

theorem handle_frame (st : Station) (s : HwAddr) (p : Bytes) :
    st.handle (ipFrame (st.mac, s) p) = st.work p >>= fun r => .ok (r.map (ipFrame (st.next, st.mac))) := by
  obtain ⟨v1, v2, -, v4, v5⟩ := ether_view st.mac s 0x0800 p
  unfold Station.handle
  rw [show Ether.new (ipFrame (st.mac, s) p) = .ok (ipFrame (st.mac, s) p) from v1, Outcome.ok_bind,
    show Ether.destination (ipFrame (st.mac, s) p) = _ from v2, Outcome.ok_bind,
    show Ether.protocol (ipFrame (st.mac, s) p) = .ok .ipv4 from v4, Outcome.ok_bind, if_pos ⟨rfl, rfl⟩,
    show Ether.payload (ipFrame (st.mac, s) p) = _ from v5, Outcome.ok_bind]
  cases st.work p with
  | err e => rfl
  | panic => rfl
  | ok r =>
    cases r with
    | none => rfl
    | some q =>
      simp only []
      rw [rewrite_frame]
      rfl

/-! ## C135 -/

/-- C135: a station sends nothing for a frame that is not addressed to it or that does not carry IPv4, whatever is
inside, and does not fail or panic. -/
theorem C135_not_mine (st : Station) (b : Bytes) (hb : Ether.new b = .ok b) (d : HwAddr) (hd : Ether.destination b = .ok d)
    (proto : EtherProtocol) (hp : Ether.protocol b = .ok proto) (h : d ≠ st.mac ∨ proto ≠ .ipv4) :
    st.handle b = .ok none := by
  unfold Station.handle
  rw [hb, Outcome.ok_bind, hd, Outcome.ok_bind, hp, Outcome.ok_bind, if_neg ?_]
  rintro ⟨h1, h2⟩
  rcases h with h | h
  · exact h h1
  · exact h h2

/-- C135: along linked stations a frame is transparent: what arrives is the packet that the stations make of the packet
alone, in a frame from the last station to the one behind it; where they drop it, fail or panic on the packet alone,
so they do in the frame. -/
theorem C135_walk (sts : List Station) : ∀ (a : HwAddr × HwAddr) (p : Bytes), Linked a.1 sts →
    walk sts (ipFrame a p) = works sts p >>= fun r => .ok (r.map (ipFrame (lastHop a sts))) := by
  induction sts with
  | nil => intro a p _; rfl
  | cons st sts ih =>
    rintro ⟨d, s⟩ p ⟨rfl, hl⟩
    rw [walk, handle_frame, works]
    cases st.work p with
    | err e => rfl
    | panic => rfl
    | ok r =>
      cases r with
      | none => rfl
      | some q =>
        rw [Outcome.ok_bind, Outcome.ok_bind, Outcome.ok_bind]
        exact ih (st.next, st.mac) q hl

/-- A router with these addresses. -/
def Station.router (cfg : Cfg) (a : HwAddr × HwAddr) : Station := ⟨a.1, a.2, hop cfg⟩
/-- A host with these addresses that answers pings. -/
def Station.host (cfg : Cfg) (a : HwAddr × HwAddr) (me : Ipv4Addr) (ttl : U8) : Station := ⟨a.1, a.2, pong cfg me ttl⟩

theorem works_append (xs ys : List Station) : ∀ p, works (xs ++ ys) p = works xs p >>= fun r =>
    match r with
    | none => .ok none
    | some q => works ys q := by
  induction xs with
  | nil => intro p; rfl
  | cons x xs ih =>
    intro p
    rw [List.cons_append, works, works]
    cases x.work p with
    | err e => rfl
    | panic => rfl
    | ok r =>
      cases r with
      | none => rfl
      | some q =>
        rw [Outcome.ok_bind, Outcome.ok_bind]
        exact ih q

theorem works_routers (cfg : Cfg) (as : List (HwAddr × HwAddr)) : ∀ p,
    works (as.map (Station.router cfg)) p = hops cfg as.length p := by
  induction as with
  | nil => intro p; rfl
  | cons a as ih =>
    intro p
    rw [List.map_cons, works, List.length_cons, hops]
    show hop cfg p >>= _ = _
    congr 1
    funext r
    cases r with
    | none => rfl
    | some q => exact ih q

/-- C135 with C133: a ping over Ethernets.  The frame with the request passes the routers `there`, is answered by the
host, and the answer passes the routers `back`; with enough time to live it arrives in a frame from the last station to
the one behind it, as a valid reply with the sender's identifier, sequence number and data. -/
theorem C135_ping (cfg : Cfg) (there back : List (HwAddr × HwAddr)) (h : HwAddr × HwAddr) (a : HwAddr × HwAddr)
    {p : Bytes} {s me : Ipv4Addr} {id seq : U16} {data : Bytes} (hp : Pings cfg true p s me id seq data) (t : U8)
    (ht : V4.ttl p = .ok t) (ttl : U8) (hn : there.length < t.toNat) (hm : back.length < ttl.toNat)
    (hl : Linked a.1 (there.map (Station.router cfg) ++ Station.host cfg h me ttl :: back.map (Station.router cfg))) :
    ∃ c, walk (there.map (Station.router cfg) ++ Station.host cfg h me ttl :: back.map (Station.router cfg))
        (ipFrame a p) =
          .ok (some (ipFrame (lastHop a (there.map (Station.router cfg) ++ Station.host cfg h me ttl ::
            back.map (Station.router cfg))) c)) ∧
      Pings cfg false c me s id seq data ∧ V4.ttl c = .ok (BitVec.ofNat 8 (ttl.toNat - back.length)) ∧
      OnlyAnswered p c := by
  obtain ⟨x, y, c, e1, e2, e3, e4, e5, e6⟩ := C133_round_trip cfg hp t ht ttl there.length back.length hn hm
  refine ⟨c, ?_, e4, e5, e6⟩
  rw [C135_walk _ _ _ hl, works_append, works_routers, e1, Outcome.ok_bind]
  simp only []
  rw [works]
  simp only [Station.host]
  rw [e2, Outcome.ok_bind]
  simp only []
  rw [works_routers, e3]
  rfl

/-- The frame around any packet the IPv4 program builds is such a frame (C102). -/
theorem C135_built (cfg : Cfg) (eops : List EtherOp) (vops : List V4Op) (inner : Inner) (out : Bytes)
    (he : eops.filterMap EtherOp.payload? = []) (h0 : vops.filterMap V4Op.payload? = []) (hi : inner.Sane cfg)
    (hout : ipv4Program cfg Dynamic.new vops inner = .ok out) (sts : List Station)
    (hl : Linked (last EtherOp.destination? .zero eops) sts) :
    ∃ frame, ethernetProgram cfg Dynamic.new eops vops inner = .ok frame ∧
      walk sts frame = works sts out >>= fun r => .ok (r.map (ipFrame (lastHop
        (last EtherOp.destination? .zero eops, last EtherOp.source? .zero eops) sts))) :=
  ⟨_, C102_frame_bytes cfg eops vops inner out he h0 hi hout,
    C135_walk sts (last EtherOp.destination? .zero eops, last EtherOp.source? .zero eops) out hl⟩

/-! ## Concrete cases -/

/-- Two routers, a host and one router back. -/
def sampleLan (n : U8) : HwAddr := ⟨2, 0, 0, 0, 0, n⟩

example (cfg : Cfg) := C135_walk [.router cfg (sampleLan 2, sampleLan 3), .router cfg (sampleLan 3, sampleLan 4)]
  (sampleLan 2, sampleLan 1) Sample.udpPacket ⟨rfl, rfl, trivial⟩
example (cfg : Cfg) := C135_ping cfg [(sampleLan 2, sampleLan 3), (sampleLan 3, sampleLan 5)] [(sampleLan 4, sampleLan 1)]
  (sampleLan 5, sampleLan 4) (sampleLan 2, sampleLan 1) (sample_ping cfg) 64 (by decide) 50 (by decide) (by decide)
  ⟨rfl, rfl, rfl, rfl, trivial⟩
example (cfg : Cfg) := C135_not_mine (.router cfg (sampleLan 9, sampleLan 3)) Sample.udpFrame (by decide) (sampleLan 2)
  (by decide) .ipv4 (by decide) (.inl (show sampleLan 2 ≠ sampleLan 9 by decide))
example (cfg : Cfg) := C135_built cfg Sample.eops Sample.vops (.icmp (.echo Sample.echoOps)) Sample.echoPacket
  (by call_by_call) (by call_by_call) (by call_by_call) (by in_every_build)
  [.router cfg (last EtherOp.destination? .zero Sample.eops, sampleLan 3)] ⟨rfl, trivial⟩

end Verif.Props

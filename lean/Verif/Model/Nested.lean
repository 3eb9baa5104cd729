import Verif.Model.Kinds
import Verif.Model.Edits

/-!
# Editing the layers of a frame in place

The usual way to change a received frame: parse the outer layer, edit it, parse what `payload_mut()` returns
as the inner layer, edit that, and so on, all on the same buffer.

```text
let mut frame = ether::Packet::new(&mut buffer[..])?;
frame.set_destination(…)?;
let mut ip = ip::v4::Packet::new(frame.payload_mut())?;
ip.checked().set_ttl(…)?.set_source(…)?;
let owned = ip::Packet::from(ip.to_owned());
let mut udp = udp::Packet::new(ip.payload_mut())?;
udp.checked(&owned).set_source(…)?;
```

`checked(&ip)` of a transport packet borrows the IP packet while the transport packet is borrowed mutably from
the same buffer, so a program has to work with a copy of the IP packet.
-/

namespace Verif

/-- `f(packet.payload_mut())` (`src/packet.rs:41-43`): what `f` does to the slice happens to that part of the
buffer. -/
def Kind.inPayload {α : Type} (k : Kind) (f : Mut Bytes α) : Mut Bytes α := fun b =>
  match k.split b, k.payloadAt b with
  | .ok s, .ok start =>
    ((f s.2).1, b.take start ++ (f s.2).2 ++ b.drop (start + s.2.length))
  | _, _ => (.panic, b)

/-- `f(packet.as_mut())`: `as_mut()` starts the buffer in every packet type, for instance `src/udp/packet.rs:107-114`. -/
def Kind.inAll {α : Type} (k : Kind) (cfg : Cfg) (f : Mut Bytes α) : Mut Bytes α := fun b =>
  match k.asRef cfg b with
  | .ok r => ((f r).1, (f r).2 ++ b.drop r.length)
  | _ => (.panic, b)

/-- `packet.as_packet_mut()?` on a packet, and `f` on the result: every packet is `AsRef` and `AsMut`, so the blanket
`AsPacketMut` (`src/udp/packet.rs:122-126` and the same lines of the other types) parses its own bytes again. -/
def Kind.asPacketMut (k : Kind) (cfg : Cfg) (f : Mut Bytes Unit) : Mut Bytes Unit :=
  k.inAll cfg (editing k.new f)

/-- Calls chained with `?`: the first error ends the program (a user's program of setters, for instance
`src/ether/packet.rs:145-164`). -/
def Mut.chain {σ : Type} : List (Mut σ Unit) → Mut σ Unit
  | [] => pure ()
  | f :: fs => do f; Mut.chain fs

/-- `v4::Packet::to_owned()` and `ip::Packet::from` (`src/ip/v4/packet.rs:113-115`, `src/ip/packet.rs:79-82`):
a copy of the whole buffer. -/
def V4.toOwned (b : Bytes) : Outcome IpPacket := .ok (.v4 b)

/-- The IPv4 part of the program above; `inner` gets the copy of the IP packet (`src/ip/v4/packet.rs:95-103,351-355`,
`src/packet.rs:41-43`). -/
def V4.editStack (cfg : Cfg) (vops : List V4.Set) (inner : IpPacket → Mut Bytes Unit) : Mut Bytes Unit :=
  editing V4.new (do
    V4.checkedRun cfg vops
    let owned ← Mut.read V4.toOwned
    Kind.inPayload .v4 (inner owned))

/-- `udp::Packet::new(ip.payload_mut())?.checked(&owned).set_…` (`src/udp/packet.rs:74-82,211-215`). -/
def Udp.editIn (cfg : Cfg) (uops : List Udp.Set) (ip : IpPacket) : Mut Bytes Unit :=
  editing Udp.new (Udp.checkedRun cfg ip uops)

/-- `tcp::Packet::new(ip.payload_mut())?.checked(&owned).set_…` (`src/tcp/packet.rs:68-82,260-264`). -/
def Tcp.editIn (cfg : Cfg) (tops : List Tcp.Set) (ip : IpPacket) : Mut Bytes Unit :=
  editing Tcp.new (Tcp.checkedRun cfg ip tops)

/-- `icmp::echo::Packet::new(ip.payload_mut())?.checked().set_…` (`src/icmp/echo/packet.rs:60-79,189-193`). -/
def Echo.editIn (cfg : Cfg) (ops : List Echo.Set) (_ip : IpPacket) : Mut Bytes Unit :=
  editing Echo.new (Echo.checkedRun cfg ops)

/-- `icmp::timestamp::Packet::new(ip.payload_mut())?.checked().set_…` (`src/icmp/timestamp/packet.rs:63-82,231-235`).
-/
def Timestamp.editIn (cfg : Cfg) (ops : List Timestamp.Set) (_ip : IpPacket) : Mut Bytes Unit :=
  editing Timestamp.new (Timestamp.checkedRun cfg ops)

/-- `icmp::information::Packet::new(ip.payload_mut())?.checked().set_…`
(`src/icmp/information/packet.rs:59-78,188-192`). -/
def Information.editIn (cfg : Cfg) (ops : List Information.Set) (_ip : IpPacket) : Mut Bytes Unit :=
  editing Information.new (Information.checkedRun cfg ops)

/-- The Ethernet part of the program above (`src/ether/packet.rs:60-70`, `src/packet.rs:41-43`). -/
def Ether.editStack (eops : List Ether.Set) (inner : Mut Bytes Unit) : Mut Bytes Unit :=
  editing Ether.new (do
    Mut.chain (eops.map Ether.Set.run)
    Kind.inPayload .ether inner)

/-! ## Typed views of a generic ICMP packet (`src/icmp/packet.rs:125-176`) -/

/-- One session on an `icmp::Packet`: take one of the three typed views that have setters, mutably, and make
any calls through its `checked()` guard.  The expansion of `kind!` at `src/icmp/packet.rs:160-167`. -/
inductive Icmp.Session where
  | echo (ops : List Echo.Set)
  | timestamp (ops : List Timestamp.Set)
  | information (ops : List Information.Set)

/-- `packet.echo_mut()?.checked().set_…` and so on: the typed packet is made of the whole buffer of the generic
one (`src/icmp/packet.rs:133-136`). -/
def Icmp.Session.run (cfg : Cfg) : Icmp.Session → Mut Bytes Unit
  | .echo ops => editing Echo.new (Echo.checkedRun cfg ops)
  | .timestamp ops => editing Timestamp.new (Timestamp.checkedRun cfg ops)
  | .information ops => editing Information.new (Information.checkedRun cfg ops)

end Verif

import Verif.Model.V4

/-!
# `packet::ip::v6::Packet` and `packet::ip::Packet`
-/

namespace Verif

namespace V6

/-- `src/ip/v6/packet.rs:25-30`. -/
def headerMin : Nat := 0
/-- `src/ip/v6/packet.rs:25-30`. -/
def headerMax : Nat := 0
/-- `src/ip/v6/packet.rs:25-30`. -/
def headerSize (_ : Bytes) : Outcome Nat := .ok 0
/-- `src/ip/v6/packet.rs:32-36`. -/
def payloadMin : Nat := 0
/-- `src/ip/v6/packet.rs:32-36`. -/
def payloadMax : Nat := 0
/-- `src/ip/v6/packet.rs:32-36`. -/
def payloadSize (_ : Bytes) : Outcome Nat := .ok 0

/-- `src/ip/v6/packet.rs:52-66`. -/
def noPayload (b : Bytes) : Outcome Bytes :=
  if b.length < headerMin then .err .smallBuffer
  else do
    let x ← idx b 0
    if x >>> 4 ≠ 6#8 then .err .invalidPacket else .ok b

/-- `src/ip/v6/packet.rs:69-71`. -/
def new (b : Bytes) : Outcome Bytes := noPayload b

/-- `src/ip/v6/packet.rs:86-90`. -/
def asRef (_ : Bytes) : Outcome Bytes := .ok []

/-- `src/ip/v6/packet.rs:110-120`. -/
def split (_ : Bytes) : Outcome (Bytes × Bytes) := .ok ([], [])

end V6

/-- `src/ip/packet.rs:22-28`. -/
inductive IpPacket where
  | v4 (b : Bytes)
  | v6 (b : Bytes)
  deriving DecidableEq

namespace IpPacket

/-- `src/ip/packet.rs:36-47`. -/
def unchecked (b : Bytes) : Outcome IpPacket := do
  let x ← idx b 0
  if x >>> 4 = 4#8 then .ok (.v4 b)
  else if x >>> 4 = 6#8 then .ok (.v6 b)
  else .panic

/-- `src/ip/packet.rs:50-61`. -/
def noPayload (b : Bytes) : Outcome IpPacket := do
  let x ← idx b 0
  if x >>> 4 = 4#8 then do
    let p ← V4.noPayload b
    .ok (.v4 p)
  else if x >>> 4 = 6#8 then do
    let p ← V6.noPayload b
    .ok (.v6 p)
  else .err .invalidPacket

/-- `src/ip/packet.rs:64-75`. -/
def new (b : Bytes) : Outcome IpPacket := do
  let x ← idx b 0
  if x >>> 4 = 4#8 then do
    let p ← V4.new b
    .ok (.v4 p)
  else if x >>> 4 = 6#8 then do
    let p ← V6.new b
    .ok (.v6 p)
  else .err .invalidPacket

/-- `src/ip/packet.rs:120-130`. -/
def asRef : IpPacket → Outcome Bytes
  | .v4 b => V4.asRef b
  | .v6 b => V6.asRef b

/-- `src/ip/packet.rs:156-178`. -/
def split : IpPacket → Outcome (Bytes × Bytes)
  | .v4 b => V4.split b
  | .v6 b => V6.split b

/-- `src/packet.rs:20-22`. -/
def header (p : IpPacket) : Outcome Bytes := do
  let s ← split p
  .ok s.1

/-- `src/packet.rs:25-27`. -/
def payload (p : IpPacket) : Outcome Bytes := do
  let s ← split p
  .ok s.2

/-- `src/ip/packet.rs:180-190`. -/
def headerSize : IpPacket → Outcome Nat
  | .v4 b => V4.headerSize b
  | .v6 b => V6.headerSize b

/-- `src/ip/packet.rs:192-202`. -/
def payloadSize : IpPacket → Outcome Nat
  | .v4 b => V4.payloadSize b
  | .v6 b => V6.payloadSize b

end IpPacket

/-- The first twelve bytes of `prefix` in `udp::checksum` and `tcp::checksum` for an IPv4 packet
(`src/udp/mod.rs:34-43`, `src/tcp/mod.rs:44-53`): source, destination, 0, protocol,
`buffer.len() as u16`. -/
def pseudoPrefix (src dst : Ipv4Addr) (proto : IpProtocol) (len : Nat) : Bytes :=
  src.octets ++ dst.octets ++ [0#8, proto.toWire] ++ be16 (BitVec.ofNat 16 len)

end Verif

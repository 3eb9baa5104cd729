import Verif.Model.Ip

/-!
# `packet::udp::Packet`
-/

namespace Verif
namespace Udp

/-- `src/udp/mod.rs:30-92`.  `prefix[0 .. 12]` is `pseudoPrefix`; an IPv6 packet reaches
`unimplemented!()`. -/
def checksumOf (cfg : Cfg) (ip : IpPacket) (b : Bytes) : Outcome U16 :=
  match ip with
  | .v6 _ => .panic
  | .v4 p => do
    let src ← V4.source p
    let dst ← V4.destination p
    let r ← sumLoop cfg 0 (pseudoPrefix src dst .udp b.length) 0 0x0000#32
    let r ← sumLoop cfg 8 b 0 r.1
    match (Cursor.readU8 cfg r.2).1 with
    | .ok v => do
      let r ← addFold cfg r.1 (v.zeroExtend 16 <<< 8)
      .ok (notU16 r)
    | _ => .ok (notU16 r.1)

/-- `src/udp/packet.rs:29-34`. -/
def headerMin : Nat := 8
/-- `src/udp/packet.rs:29-34`. -/
def headerMax : Nat := 8
/-- `src/udp/packet.rs:29-34`. -/
def headerSize (_ : Bytes) : Outcome Nat := .ok 8
/-- `src/udp/packet.rs:36-40`. -/
def payloadMin : Nat := 0
/-- `src/udp/packet.rs:36-40`. -/
def payloadMax : Nat := 65535 - 8

/-- `src/udp/packet.rs:168-170`. -/
def source (b : Bytes) : Outcome U16 := readU16At b 0
/-- `src/udp/packet.rs:173-175`. -/
def destination (b : Bytes) : Outcome U16 := readU16At b 2
/-- `src/udp/packet.rs:178-180`. -/
def length (b : Bytes) : Outcome U16 := readU16At b 4
/-- `src/udp/packet.rs:183-185`. -/
def checksum (b : Bytes) : Outcome U16 := readU16At b 6

/-- `src/udp/packet.rs:39`, `(p.length() as usize).saturating_sub(8)`. -/
def payloadSize (b : Bytes) : Outcome Nat := do
  let l ← length b
  .ok (l.toNat - 8)

/-- `src/size.rs:87-91`. -/
def size (b : Bytes) : Outcome Nat := do
  let h ← headerSize b
  let p ← payloadSize b
  .ok (h + p)

/-- `src/udp/packet.rs:61-71`. -/
def noPayload (b : Bytes) : Outcome Bytes :=
  if b.length < headerMin then .err .smallBuffer else .ok b

/-- `src/udp/packet.rs:74-82`. -/
def new (b : Bytes) : Outcome Bytes := do
  let p ← noPayload b
  let l ← length p
  if p.length < l.toNat then .err .smallBuffer else .ok p

/-- `src/udp/packet.rs:99-105`. -/
def asRef (b : Bytes) : Outcome Bytes := do
  let n ← size b
  sliceTo b n

/-- `src/udp/packet.rs:128-164`, `split`/`split_mut`. -/
def split (b : Bytes) : Outcome (Bytes × Bytes) := do
  let header := 8
  let payload ← payloadSize b
  let buffer ← if b.length < header + payload then .ok b else sliceTo b (header + payload)
  splitAt buffer header

/-- `src/packet.rs:20-22`. -/
def header (b : Bytes) : Outcome Bytes := do
  let s ← split b
  .ok s.1

/-- `src/packet.rs:25-27`. -/
def payload (b : Bytes) : Outcome Bytes := do
  let s ← split b
  .ok s.2

/-- `src/udp/packet.rs:188-190`. -/
def isValid (cfg : Cfg) (ip : IpPacket) (b : Bytes) : Outcome Bool := do
  let c ← checksumOf cfg ip b
  let s ← checksum b
  .ok (c == s)

/-- `src/udp/packet.rs:195-200`. -/
def setSource (v : U16) : Mut Bytes Unit := onHeader split (writeU16 0 v)
/-- `src/udp/packet.rs:203-208`. -/
def setDestination (v : U16) : Mut Bytes Unit := onHeader split (writeU16 2 v)
/-- `src/udp/packet.rs:219-224`. -/
def setChecksum (v : U16) : Mut Bytes Unit := onHeader split (writeU16 6 v)

/-- `src/udp/packet.rs:227-230`. -/
def updateChecksum (cfg : Cfg) (ip : IpPacket) : Mut Bytes Unit := do
  let c ← Mut.read (checksumOf cfg ip)
  setChecksum c

/-- The setters of `Checked` (`src/udp/packet.rs:246-261`), as data. -/
inductive Set where
  | source (v : U16)
  | destination (v : U16)

/-- `src/udp/packet.rs:246-261`. -/
def Set.run : Set → Mut Bytes Unit
  | .source v => setSource v
  | .destination v => setDestination v

/-- `packet.checked(ip)`, the calls `ops`, then `Drop` (`src/udp/packet.rs:263-270`). -/
def checkedRun (cfg : Cfg) (ip : IpPacket) (ops : List Set) : Mut Bytes Unit := do
  runIgnoringErrors (ops.map Set.run)
  (updateChecksum cfg ip).unwrap

end Udp
end Verif

import Verif.Model.Tables

/-!
# `packet::ether::Packet`

A `Packet<B>` is the byte string `buffer.as_ref()`.
-/

namespace Verif

/-- `hwaddr::HwAddr`: six octets (imported at `src/ether/packet.rs:18`; the crate `hwaddr` is not in `/repo`). -/
structure HwAddr where
  a : U8
  b : U8
  c : U8
  d : U8
  e : U8
  f : U8
  deriving DecidableEq

namespace HwAddr

/-- `HwAddr::octets` (used at `src/ether/packet.rs:146,153`). -/
def octets (h : HwAddr) : Bytes := [h.a, h.b, h.c, h.d, h.e, h.f]

/-- `HwAddr::from(&[u8])` on a slice of exactly six bytes (the only use in the crate) (used at
`src/ether/packet.rs:128-135`). -/
def ofSlice : Bytes → Outcome HwAddr
  | [a, b, c, d, e, f] => .ok ⟨a, b, c, d, e, f⟩
  | _ => .panic

end HwAddr

namespace Ether

/-- `src/ether/packet.rs:29-33`. -/
def headerMin : Nat := 14
/-- `src/ether/packet.rs:29-33`. -/
def headerMax : Nat := 14
/-- `src/ether/packet.rs:29-33`. -/
def headerSize (_ : Bytes) : Outcome Nat := .ok 14
/-- `src/ether/packet.rs:36-40`. -/
def payloadMin : Nat := 0
/-- `src/ether/packet.rs:36-40`. -/
def payloadMax : Nat := 1486
/-- `src/ether/packet.rs:39`, `p.buffer.as_ref().len() - 14`. -/
def payloadSize (cfg : Cfg) (b : Bytes) : Outcome Nat := subUsize cfg b.length 14

/-- `src/size.rs:87-91`, `Size::size`. -/
def size (cfg : Cfg) (b : Bytes) : Outcome Nat := do
  let h ← headerSize b
  let p ← payloadSize cfg b
  addUsize cfg h p

/-- `src/ether/packet.rs:60-70`. -/
def new (b : Bytes) : Outcome Bytes :=
  if b.length < headerMin then .err .smallBuffer else .ok b

/-- `src/ether/packet.rs:85-91`. -/
def asRef (cfg : Cfg) (b : Bytes) : Outcome Bytes := do
  let n ← size cfg b
  sliceTo b n

/-- `src/ether/packet.rs:114-124`, `split`/`split_mut`. -/
def split (b : Bytes) : Outcome (Bytes × Bytes) := splitAt b 14

/-- `src/packet.rs:20-22`, the provided `Packet::header`. -/
def header (b : Bytes) : Outcome Bytes := do
  let s ← split b
  .ok s.1

/-- `src/packet.rs:25-27`, the provided `Packet::payload`. -/
def payload (b : Bytes) : Outcome Bytes := do
  let s ← split b
  .ok s.2

/-- `src/ether/packet.rs:128-130`. -/
def destination (b : Bytes) : Outcome HwAddr := do
  let s ← slice b 0 6
  HwAddr.ofSlice s

/-- `src/ether/packet.rs:133-135`. -/
def source (b : Bytes) : Outcome HwAddr := do
  let s ← slice b 6 12
  HwAddr.ofSlice s

/-- `src/ether/packet.rs:138-140`. -/
def protocol (b : Bytes) : Outcome EtherProtocol := do
  let v ← readU16At b 12
  .ok (EtherProtocol.ofWire v)

/-- `src/ether/packet.rs:145-149`. -/
def setDestination (v : HwAddr) : Mut Bytes Unit := copyRange 0 6 v.octets

/-- `src/ether/packet.rs:152-156`. -/
def setSource (v : HwAddr) : Mut Bytes Unit := copyRange 6 12 v.octets

/-- `src/ether/packet.rs:159-164`. -/
def setProtocol (v : EtherProtocol) : Mut Bytes Unit := writeU16 12 v.toWire

end Ether
end Verif

import Verif.Model.Ip

/-!
# `packet::tcp::Packet`
-/

namespace Verif

/-- `src/tcp/flag.rs:17-47`: a `bitflags!` set over `u16` with the nine low bits defined. -/
structure TcpFlags where
  bits : U16
  valid : bits &&& ~~~0b1_1111_1111#16 = 0#16
  deriving DecidableEq

namespace TcpFlags
/-- `Flags::from_bits` (`bitflags!` at `src/tcp/flag.rs:17`, used at `src/tcp/packet.rs:168`). -/
def fromBits (v : U16) : Option TcpFlags :=
  if h : v &&& ~~~0b1_1111_1111#16 = 0#16 then some ⟨v, h⟩ else none
/-- `Flags::empty()` (`bitflags!` at `src/tcp/flag.rs:17`). -/
def empty : TcpFlags := ⟨0#16, by decide⟩
/-- `src/tcp/flag.rs:24`. -/
def syn : TcpFlags := ⟨0b10#16, by decide⟩
/-- `src/tcp/flag.rs:33`. -/
def ack : TcpFlags := ⟨0b1_0000#16, by decide⟩
end TcpFlags

namespace Tcp

/-- `src/tcp/mod.rs:39-100`. -/
def checksumOf (cfg : Cfg) (ip : IpPacket) (b : Bytes) : Outcome U16 :=
  match ip with
  | .v6 _ => .panic
  | .v4 p => do
    let src ← V4.source p
    let dst ← V4.destination p
    let r ← plainLoop cfg 0 (pseudoPrefix src dst .tcp b.length) 0 0 0#32
    let r ← plainLoop cfg 18 b 0 0 r.1
    if r.2.1 ≠ b.length then do
      let rem ← (Cursor.readU8 cfg r.2.2).1.unwrap
      let r ← addU32 cfg r.1 (rem.zeroExtend 32 <<< 8)
      .ok (notU16 (carryFold r))
    else .ok (notU16 (carryFold r.1))

/-- `src/tcp/packet.rs:31-36`. -/
def headerMin : Nat := 20
/-- `src/tcp/packet.rs:31-36`. -/
def headerMax : Nat := 60
/-- `src/tcp/packet.rs:38-42`. -/
def payloadMin : Nat := 0
/-- `src/tcp/packet.rs:38-42`. -/
def payloadMax : Nat := 65535 - 60

/-- `src/tcp/packet.rs:142-144`. -/
def source (b : Bytes) : Outcome U16 := readU16At b 0
/-- `src/tcp/packet.rs:147-149`. -/
def destination (b : Bytes) : Outcome U16 := readU16At b 2
/-- `src/tcp/packet.rs:152-154`. -/
def sequence (b : Bytes) : Outcome U32 := readU32At b 4
/-- `src/tcp/packet.rs:157-159`. -/
def acknowledgment (b : Bytes) : Outcome U32 := readU32At b 8

/-- `src/tcp/packet.rs:162-164`. -/
def offset (b : Bytes) : Outcome U8 := do
  let x ← idx b 12
  .ok (x >>> 4)

/-- `src/tcp/packet.rs:167-170`. -/
def flags (b : Bytes) : Outcome TcpFlags := do
  let v ← readU16At b 12
  match TcpFlags.fromBits (v &&& 0b1_1111_1111#16) with
  | some f => .ok f
  | none => .panic

/-- `src/tcp/packet.rs:173-175`. -/
def window (b : Bytes) : Outcome U16 := readU16At b 14
/-- `src/tcp/packet.rs:178-180`. -/
def checksum (b : Bytes) : Outcome U16 := readU16At b 16
/-- `src/tcp/packet.rs:188-190`. -/
def pointer (b : Bytes) : Outcome U16 := readU16At b 18

/-- `src/tcp/packet.rs:35`. -/
def headerSize (b : Bytes) : Outcome Nat := do
  let o ← offset b
  .ok (o.toNat * 4)

/-- `src/tcp/packet.rs:41`, `p.buffer.as_ref().len() - (p.offset() as usize * 4)`. -/
def payloadSize (cfg : Cfg) (b : Bytes) : Outcome Nat := do
  let o ← offset b
  subUsize cfg b.length (o.toNat * 4)

/-- `src/size.rs:87-91`. -/
def size (cfg : Cfg) (b : Bytes) : Outcome Nat := do
  let h ← headerSize b
  let p ← payloadSize cfg b
  addUsize cfg h p

/-- `src/tcp/packet.rs:68-82`. -/
def new (b : Bytes) : Outcome Bytes :=
  if b.length < headerMin then .err .smallBuffer
  else do
    let o ← offset b
    if b.length < o.toNat * 4 then .err .smallBuffer else .ok b

/-- `src/tcp/packet.rs:97-103`. -/
def asRef (cfg : Cfg) (b : Bytes) : Outcome Bytes := do
  let n ← size cfg b
  sliceTo b n

/-- `src/tcp/packet.rs:126-138`, `split`/`split_mut`. -/
def split (b : Bytes) : Outcome (Bytes × Bytes) := do
  let o ← offset b
  splitAt b (o.toNat * 4)

/-- `src/packet.rs:20-22`. -/
def header (b : Bytes) : Outcome Bytes := do
  let s ← split b
  .ok s.1

/-- `src/packet.rs:25-27`. -/
def payload (b : Bytes) : Outcome Bytes := do
  let s ← split b
  .ok s.2

/-- `src/tcp/packet.rs:183-185`. -/
def isValid (cfg : Cfg) (ip : IpPacket) (b : Bytes) : Outcome Bool := do
  let c ← checksumOf cfg ip b
  let s ← checksum b
  .ok (c == s)

/-- `src/tcp/packet.rs:193-197`: the initial state of the option iterator. -/
def options (b : Bytes) : Outcome Bytes := do
  let o ← offset b
  slice b 20 (o.toNat * 4)

/-- `src/tcp/packet.rs:202-207`. -/
def setSource (v : U16) : Mut Bytes Unit := onHeader split (writeU16 0 v)
/-- `src/tcp/packet.rs:210-215`. -/
def setDestination (v : U16) : Mut Bytes Unit := onHeader split (writeU16 2 v)
/-- `src/tcp/packet.rs:218-223`. -/
def setSequence (v : U32) : Mut Bytes Unit := onHeader split (writeU32 4 v)
/-- `src/tcp/packet.rs:226-231`. -/
def setAcknowledgment (v : U32) : Mut Bytes Unit := onHeader split (writeU32 8 v)

/-- `src/tcp/packet.rs:234-241`.  `u16::from(old) << 12` drops the four bits of `old` that are set. -/
def setFlags (v : TcpFlags) : Mut Bytes Unit := do
  let old ← Mut.read fun b => do
    let h ← header b
    idx h 12
  let old := old &&& 0b1111_0000#8
  onHeader split (writeU16 12 ((old.zeroExtend 16 <<< 12) ||| v.bits))

/-- `src/tcp/packet.rs:244-249`. -/
def setWindow (v : U16) : Mut Bytes Unit := onHeader split (writeU16 14 v)
/-- `src/tcp/packet.rs:252-257`. -/
def setPointer (v : U16) : Mut Bytes Unit := onHeader split (writeU16 18 v)
/-- `src/tcp/packet.rs:268-273`. -/
def setChecksum (v : U16) : Mut Bytes Unit := onHeader split (writeU16 16 v)

/-- `src/tcp/packet.rs:276-279`. -/
def updateChecksum (cfg : Cfg) (ip : IpPacket) : Mut Bytes Unit := do
  let c ← Mut.read (checksumOf cfg ip)
  setChecksum c

/-- The setters of `Checked` (`src/tcp/packet.rs:295-340`), as data. -/
inductive Set where
  | source (v : U16)
  | destination (v : U16)
  | sequence (v : U32)
  | acknowledgment (v : U32)
  | flags (v : TcpFlags)
  | window (v : U16)
  | pointer (v : U16)

/-- `src/tcp/packet.rs:295-340`. -/
def Set.run : Set → Mut Bytes Unit
  | .source v => setSource v
  | .destination v => setDestination v
  | .sequence v => setSequence v
  | .acknowledgment v => setAcknowledgment v
  | .flags v => setFlags v
  | .window v => setWindow v
  | .pointer v => setPointer v

/-- `packet.checked(ip)`, the calls `ops`, then `Drop` (`src/tcp/packet.rs:342-349`). -/
def checkedRun (cfg : Cfg) (ip : IpPacket) (ops : List Set) : Mut Bytes Unit := do
  runIgnoringErrors (ops.map Set.run)
  (updateChecksum cfg ip).unwrap

end Tcp
end Verif

import Verif.Model.Tables
import Verif.Model.Sum
import Verif.Model.Options

/-!
# `packet::ip::v4::Packet`
-/

namespace Verif

/-- `std::net::Ipv4Addr` (imported at `src/ip/v4/packet.rs:17`). -/
structure Ipv4Addr where
  a : U8
  b : U8
  c : U8
  d : U8
  deriving DecidableEq

/-- `Ipv4Addr::octets` (used at `src/ip/v4/packet.rs:331,338`). -/
def Ipv4Addr.octets (x : Ipv4Addr) : Bytes := [x.a, x.b, x.c, x.d]

/-- `src/ip/v4/flag.rs:17-26`: a `bitflags!` set over `u16` in which only the bits `0b110` are
defined.  Safe code can only make values without other bits. -/
structure V4Flags where
  bits : U16
  valid : bits &&& ~~~0b110#16 = 0#16
  deriving DecidableEq

namespace V4Flags
/-- `src/ip/v4/flag.rs:21`. -/
def dontFragment : V4Flags := ⟨0b010#16, by decide⟩
/-- `src/ip/v4/flag.rs:24`. -/
def moreFragments : V4Flags := ⟨0b100#16, by decide⟩
/-- `Flags::empty()` (`bitflags!` at `src/ip/v4/flag.rs:17`). -/
def empty : V4Flags := ⟨0#16, by decide⟩
/-- `Flags::from_bits` (`bitflags!` at `src/ip/v4/flag.rs:17`, used at `src/ip/v4/packet.rs:218`). -/
def fromBits (v : U16) : Option V4Flags :=
  if h : v &&& ~~~0b110#16 = 0#16 then some ⟨v, h⟩ else none
/-- `Flags::contains` (`bitflags!` at `src/ip/v4/flag.rs:17`). -/
def contains (f g : V4Flags) : Bool := f.bits &&& g.bits = g.bits
end V4Flags

namespace V4

/-- `src/ip/v4/mod.rs:30-51`. -/
def checksumOf (cfg : Cfg) (b : Bytes) : Outcome U16 := do
  let r ← sumLoop cfg 12 b 0 0xffff#32
  .ok (notU16 r.1)

/-- `src/ip/v4/packet.rs:33-35`. -/
def headerMin : Nat := 20
/-- `src/ip/v4/packet.rs:33-36`. -/
def headerMax : Nat := 60
/-- `src/ip/v4/packet.rs:41`. -/
def payloadMin : Nat := 0
/-- `src/ip/v4/packet.rs:42`. -/
def payloadMax : Nat := 65535 - 60

/-- `src/ip/v4/packet.rs:187-189`. -/
def version (b : Bytes) : Outcome U8 := do
  let x ← idx b 0
  .ok (x >>> 4)

/-- `src/ip/v4/packet.rs:192-194`, the inherent `header()`: the IHL in 32-bit words. -/
def ihl (b : Bytes) : Outcome U8 := do
  let x ← idx b 0
  .ok (x &&& 0b1111#8)

/-- `src/ip/v4/packet.rs:197-199`. -/
def dscp (b : Bytes) : Outcome U8 := do
  let x ← idx b 1
  .ok (x >>> 2)

/-- `src/ip/v4/packet.rs:202-204`. -/
def ecn (b : Bytes) : Outcome U8 := do
  let x ← idx b 1
  .ok (x &&& 0b11#8)

/-- `src/ip/v4/packet.rs:207-209`. -/
def length (b : Bytes) : Outcome U16 := readU16At b 2

/-- `src/ip/v4/packet.rs:212-214`. -/
def id (b : Bytes) : Outcome U16 := readU16At b 4

/-- `src/ip/v4/packet.rs:217-220`. -/
def flags (b : Bytes) : Outcome V4Flags := do
  let v ← readU16At b 6
  match V4Flags.fromBits (v >>> 13) with
  | some f => .ok f
  | none => .panic

/-- `src/ip/v4/packet.rs:223-225`. -/
def offset (b : Bytes) : Outcome U16 := do
  let v ← readU16At b 6
  .ok (v &&& 0x1fff#16)

/-- `src/ip/v4/packet.rs:228-230`. -/
def ttl (b : Bytes) : Outcome U8 := idx b 8

/-- `src/ip/v4/packet.rs:233-235`. -/
def protocol (b : Bytes) : Outcome IpProtocol := do
  let x ← idx b 9
  .ok (IpProtocol.ofWire x)

/-- `src/ip/v4/packet.rs:238-240`. -/
def checksum (b : Bytes) : Outcome U16 := readU16At b 10

/-- `src/ip/v4/packet.rs:248-254`. -/
def source (b : Bytes) : Outcome Ipv4Addr := do
  let x0 ← idx b 12
  let x1 ← idx b 13
  let x2 ← idx b 14
  let x3 ← idx b 15
  .ok ⟨x0, x1, x2, x3⟩

/-- `src/ip/v4/packet.rs:257-263`. -/
def destination (b : Bytes) : Outcome Ipv4Addr := do
  let x0 ← idx b 16
  let x1 ← idx b 17
  let x2 ← idx b 18
  let x3 ← idx b 19
  .ok ⟨x0, x1, x2, x3⟩

/-- `src/ip/v4/packet.rs:37`, `p.header() as usize * 4`. -/
def headerSize (b : Bytes) : Outcome Nat := do
  let h ← ihl b
  .ok (h.toNat * 4)

/-- `src/ip/v4/packet.rs:43`, `(p.length() as usize).saturating_sub(p.header() as usize * 4)`. -/
def payloadSize (b : Bytes) : Outcome Nat := do
  let l ← length b
  let h ← ihl b
  .ok (l.toNat - h.toNat * 4)

/-- `src/size.rs:87-91`. -/
def size (b : Bytes) : Outcome Nat := do
  let h ← headerSize b
  let p ← payloadSize b
  .ok (h + p)

/-- `src/ip/v4/packet.rs:74-92`. -/
def noPayload (b : Bytes) : Outcome Bytes :=
  if b.length < headerMin then .err .smallBuffer
  else do
    let x ← idx b 0
    if x >>> 4 ≠ 4#8 then .err .invalidPacket
    else do
      let h ← ihl b
      if b.length < h.toNat * 4 then .err .smallBuffer else .ok b

/-- `src/ip/v4/packet.rs:95-103`. -/
def new (b : Bytes) : Outcome Bytes := do
  let p ← noPayload b
  let l ← length p
  if p.length < l.toNat then .err .smallBuffer else .ok p

/-- `src/ip/v4/packet.rs:118-124`. -/
def asRef (b : Bytes) : Outcome Bytes := do
  let n ← size b
  sliceTo b n

/-- `src/ip/v4/packet.rs:147-183`, `split`/`split_mut`. -/
def split (b : Bytes) : Outcome (Bytes × Bytes) := do
  let h ← ihl b
  let header := h.toNat * 4
  let payload ← payloadSize b
  let buffer ← if b.length < header + payload then .ok b else sliceTo b (header + payload)
  splitAt buffer header

/-- `src/packet.rs:20-22`, `P::header(self)`. -/
def header (b : Bytes) : Outcome Bytes := do
  let s ← split b
  .ok s.1

/-- `src/packet.rs:25-27`. -/
def payload (b : Bytes) : Outcome Bytes := do
  let s ← split b
  .ok s.2

/-- `src/ip/v4/packet.rs:243-245`. -/
def isValid (cfg : Cfg) (b : Bytes) : Outcome Bool := do
  let h ← header b
  let c ← checksumOf cfg h
  let s ← checksum b
  .ok (c == s)

/-- `src/ip/v4/packet.rs:266-270`: the initial state of the option iterator. -/
def options (b : Bytes) : Outcome Bytes := do
  let h ← ihl b
  slice b 20 (h.toNat * 4)

/-- `src/ip/v4/packet.rs:275-284`. -/
def setDscp (v : U8) : Mut Bytes Unit :=
  if v > 0b111111#8 then Mut.fail .invalidValue
  else do
    let old ← Mut.read (idx · 1)
    setIdx 1 ((old &&& 0b11#8) ||| (v <<< 2))

/-- `src/ip/v4/packet.rs:287-296`. -/
def setEcn (v : U8) : Mut Bytes Unit :=
  if v > 0b11#8 then Mut.fail .invalidValue
  else do
    let old ← Mut.read (idx · 1)
    setIdx 1 ((old &&& 0b111111#8) ||| v)

/-- `src/ip/v4/packet.rs:299-304`. -/
def setId (v : U16) : Mut Bytes Unit := writeU16 4 v

/-- `src/ip/v4/packet.rs:307-312`. -/
def setFlags (v : V4Flags) : Mut Bytes Unit := onHeader split (writeU16 6 v.bits)

/-- `src/ip/v4/packet.rs:315-320`. -/
def setOffset (v : U16) : Mut Bytes Unit := onHeader split (writeU16 6 v)

/-- `src/ip/v4/packet.rs:323-327`. -/
def setTtl (v : U8) : Mut Bytes Unit := onHeader split (setIdx 8 v)

/-- `src/ip/v4/packet.rs:330-334`. -/
def setSource (v : Ipv4Addr) : Mut Bytes Unit := onHeader split (copyRange 12 16 v.octets)

/-- `src/ip/v4/packet.rs:337-341`. -/
def setDestination (v : Ipv4Addr) : Mut Bytes Unit := onHeader split (copyRange 16 20 v.octets)

/-- `src/ip/v4/packet.rs:344-348`. -/
def setProtocol (v : IpProtocol) : Mut Bytes Unit := onHeader split (setIdx 9 v.toWire)

/-- `src/ip/v4/packet.rs:358-363`. -/
def setChecksum (v : U16) : Mut Bytes Unit := onHeader split (writeU16 10 v)

/-- `src/ip/v4/packet.rs:366-369`. -/
def updateChecksum (cfg : Cfg) : Mut Bytes Unit := do
  let c ← Mut.read fun b => do
    let h ← header b
    checksumOf cfg h
  setChecksum c

/-- The setters of `Checked` (`src/ip/v4/packet.rs:381-435`), as data. -/
inductive Set where
  | dscp (v : U8)
  | ecn (v : U8)
  | id (v : U16)
  | flags (v : V4Flags)
  | offset (v : U16)
  | ttl (v : U8)
  | source (v : Ipv4Addr)
  | destination (v : Ipv4Addr)
  | protocol (v : IpProtocol)

/-- `src/ip/v4/packet.rs:381-435`: each `Checked` setter calls the setter of the packet. -/
def Set.run : Set → Mut Bytes Unit
  | .dscp v => setDscp v
  | .ecn v => setEcn v
  | .id v => setId v
  | .flags v => setFlags v
  | .offset v => setOffset v
  | .ttl v => setTtl v
  | .source v => setSource v
  | .destination v => setDestination v
  | .protocol v => setProtocol v

end V4

/-- A caller's use of a `Checked` guard: the calls are made one after the other, the result of each
(`Ok` or `Err`) is ignored by the caller, a panic ends the run (the guard is then dropped during
unwinding: `Model/Unwind.lean`) (the guard is `src/ip/v4/packet.rs:366-441`; the same for the other packet types).
-/
def runIgnoringErrors {σ : Type} : List (Mut σ Unit) → Mut σ Unit
  | [] => fun s => (.ok (), s)
  | f :: fs => fun s =>
    match f s with
    | (.panic, s') => (.panic, s')
    | (_, s') => runIgnoringErrors fs s'

/-- `packet.checked()`, the calls `ops`, then `Drop` (`src/ip/v4/packet.rs:437-441`). -/
def V4.checkedRun (cfg : Cfg) (ops : List V4.Set) : Mut Bytes Unit := do
  runIgnoringErrors (ops.map V4.Set.run)
  (V4.updateChecksum cfg).unwrap

end Verif

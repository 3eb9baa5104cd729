import Verif.Model.Buffer
import Verif.Model.Ether
import Verif.Model.Ip
import Verif.Model.Udp
import Verif.Model.Tcp
import Verif.Model.Icmp

/-!
# The packet builders

Every builder method consumes the builder and returns `Result<Self>`, so it is a function
`Builder → Outcome Builder`; a panic or an error loses the builder.  Closures handed to
`Finalization::add` are `Finalizer`s.  `usize` additions inside the finalizers (`offset + length` and
the like) are below the length of an existing buffer, hence below `isize::MAX`, and are plain `Nat`.

The calls a user can make on a builder are also given as data (`Op`), with `run` for a whole history.
-/

namespace Verif

/-! ## Ethernet -/

/-- `src/ether/builder.rs:28-33`. -/
structure EtherBuilder (B : Type) where
  buffer : B
  finalizer : Finalization
  payload : Bool

namespace EtherBuilder
variable {B : Type} [Buffer B]

/-- `src/ether/builder.rs:36-46`. -/
def «with» (cfg : Cfg) (buffer : B) : Outcome (EtherBuilder B) := do
  let buffer ← onBuffer (Buffer.next cfg Ether.headerMin) buffer
  .ok ⟨buffer, [], false⟩

/-- `src/ether/builder.rs:52-56`. -/
def build (s : EtherBuilder B) : Outcome Bytes := buildTail s.buffer s.finalizer

/-- `Packet::unchecked(self.buffer.data_mut()).set_…(value)?; Ok(self)` (`src/ether/builder.rs:79-97`). -/
def setter (cfg : Cfg) (f : Mut Bytes Unit) (s : EtherBuilder B) : Outcome (EtherBuilder B) := do
  let buffer ← onBuffer (Buffer.modifyData cfg f) s.buffer
  .ok { s with buffer := buffer }

/-- `src/ether/builder.rs:79-83`. -/
def destination (cfg : Cfg) (v : HwAddr) (s : EtherBuilder B) := setter cfg (Ether.setDestination v) s
/-- `src/ether/builder.rs:86-90`. -/
def source (cfg : Cfg) (v : HwAddr) (s : EtherBuilder B) := setter cfg (Ether.setSource v) s
/-- `src/ether/builder.rs:93-97`. -/
def protocol (cfg : Cfg) (v : EtherProtocol) (s : EtherBuilder B) :=
  setter cfg (Ether.setProtocol v) s

/-- `src/ether/builder.rs:100-113`. -/
def setPayload (cfg : Cfg) (v : Bytes) (s : EtherBuilder B) : Outcome (EtherBuilder B) :=
  if s.payload then .err .alreadyDefined
  else do
    let buffer ← onBuffer (appendAll cfg v) s.buffer
    .ok { s with buffer := buffer, payload := true }

/-- The closure of `src/ether/builder.rs:124-139`. -/
def ipFinalizer (offset length : Nat) : Finalizer := do
  let x ← Mut.read (idx · (offset + length))
  if x >>> 4 = 4#8 then writeU16 (offset + 12) EtherProtocol.ipv4.toWire
  else if x >>> 4 = 6#8 then writeU16 (offset + 12) EtherProtocol.ipv6.toWire
  else Mut.panic

end EtherBuilder

/-! ## IP -/

/-- `src/ip/builder.rs:22-25`. -/
structure IpBuilder (B : Type) where
  buffer : B
  finalizer : Finalization

/-- `src/ip/v6/builder.rs:23-26`. -/
structure V6Builder (B : Type) where
  buffer : B
  finalizer : Finalization

/-- `src/ip/v4/builder.rs:30-36` (the `options` flag is never read). -/
structure V4Builder (B : Type) where
  buffer : B
  finalizer : Finalization
  payload : Bool

/-- `src/ether/builder.rs:116-145`. -/
def EtherBuilder.ip {B : Type} [Buffer B] (s : EtherBuilder B) : Outcome (IpBuilder B) :=
  if s.payload then .err .alreadyDefined
  else
    let fin := s.finalizer.add
      (EtherBuilder.ipFinalizer (Buffer.offset s.buffer) (Buffer.length s.buffer))
    .ok ⟨s.buffer, Finalization.extend [] fin⟩

namespace IpBuilder
variable {B : Type} [Buffer B]
/-- `src/ip/builder.rs:28-33`. -/
def «with» (buffer : B) : Outcome (IpBuilder B) := .ok ⟨buffer, []⟩
/-- `src/ip/builder.rs:39-41`. -/
def build (_ : IpBuilder B) : Outcome Bytes := .err .invalidPacket
end IpBuilder

namespace V6Builder
variable {B : Type} [Buffer B]
/-- `src/ip/v6/builder.rs:29-34`. -/
def «with» (buffer : B) : Outcome (V6Builder B) := .ok ⟨buffer, []⟩
/-- `src/ip/v6/builder.rs:40-42`. -/
def build (_ : V6Builder B) : Outcome Bytes := .err .invalidPacket
end V6Builder

namespace V4Builder
variable {B : Type} [Buffer B]

/-- `src/ip/v4/builder.rs:39-58`: `data_mut()[0] = (4 << 4) | ((min() / 4) as u8)`. -/
def «with» (cfg : Cfg) (buffer : B) : Outcome (V4Builder B) := do
  let buffer ← onBuffer (Buffer.next cfg V4.headerMin) buffer
  let buffer ← onBuffer (Buffer.modifyData cfg
    (setIdx 0 ((4#8 <<< 4) ||| BitVec.ofNat 8 (V4.headerMin / 4)))) buffer
  .ok ⟨buffer, [], false⟩

/-- `Packet::unchecked(self.buffer.data_mut()).set_…(value)?; Ok(self)` (`src/ip/v4/builder.rs:112-163`). -/
def setter (cfg : Cfg) (f : Mut Bytes Unit) (s : V4Builder B) : Outcome (V4Builder B) := do
  let buffer ← onBuffer (Buffer.modifyData cfg f) s.buffer
  .ok { s with buffer := buffer }

/-- `src/ip/v4/builder.rs:112-115`. -/
def dscp (cfg : Cfg) (v : U8) (s : V4Builder B) := setter cfg (V4.setDscp v) s
/-- `src/ip/v4/builder.rs:118-121`. -/
def ecn (cfg : Cfg) (v : U8) (s : V4Builder B) := setter cfg (V4.setEcn v) s
/-- `src/ip/v4/builder.rs:124-127`. -/
def id (cfg : Cfg) (v : U16) (s : V4Builder B) := setter cfg (V4.setId v) s
/-- `src/ip/v4/builder.rs:130-133`. -/
def flags (cfg : Cfg) (v : V4Flags) (s : V4Builder B) := setter cfg (V4.setFlags v) s
/-- `src/ip/v4/builder.rs:136-139`. -/
def offset (cfg : Cfg) (v : U16) (s : V4Builder B) := setter cfg (V4.setOffset v) s
/-- `src/ip/v4/builder.rs:142-145`. -/
def ttl (cfg : Cfg) (v : U8) (s : V4Builder B) := setter cfg (V4.setTtl v) s
/-- `src/ip/v4/builder.rs:148-151`. -/
def source (cfg : Cfg) (v : Ipv4Addr) (s : V4Builder B) := setter cfg (V4.setSource v) s
/-- `src/ip/v4/builder.rs:154-157`. -/
def destination (cfg : Cfg) (v : Ipv4Addr) (s : V4Builder B) := setter cfg (V4.setDestination v) s
/-- `src/ip/v4/builder.rs:160-163`. -/
def protocol (cfg : Cfg) (v : IpProtocol) (s : V4Builder B) := setter cfg (V4.setProtocol v) s

/-- `src/ip/v4/builder.rs:166-179`. -/
def setPayload (cfg : Cfg) (v : Bytes) (s : V4Builder B) : Outcome (V4Builder B) :=
  if s.payload then .err .alreadyDefined
  else do
    let buffer ← onBuffer (appendAll cfg v) s.buffer
    .ok { s with buffer := buffer, payload := true }

/-- The closure of `src/ip/v4/builder.rs:185-201`.  `length / 4` counts a raw payload as header. -/
def finalizerOf (cfg : Cfg) (offset length : Nat) : Finalizer := do
  let header := length / 4
  setIdx offset ((4#8 <<< 4) ||| BitVec.ofNat 8 header)
  let rest ← Mut.read fun out => subUsize cfg out.length (offset + length)
  writeU16 (offset + 2) (BitVec.ofNat 16 (length + rest))
  let c ← Mut.read fun out => do
    let h ← slice out offset (offset + header * 4)
    V4.checksumOf cfg h
  writeU16 (offset + 10) c

/-- `src/ip/v4/builder.rs:181-202`. -/
def prepare (cfg : Cfg) (s : V4Builder B) : V4Builder B :=
  { s with
    finalizer := s.finalizer.add
      (finalizerOf cfg (Buffer.offset s.buffer) (Buffer.length s.buffer)) }

/-- `src/ip/v4/builder.rs:64-70`. -/
def build (cfg : Cfg) (s : V4Builder B) : Outcome Bytes :=
  let s := prepare cfg s
  buildTail s.buffer s.finalizer

/-- The part of the `protocol!` macro before the inner builder is made
(`src/ip/v4/builder.rs:94-100`). -/
def enter (cfg : Cfg) (p : IpProtocol) (s : V4Builder B) : Outcome (V4Builder B) :=
  if s.payload then .err .alreadyDefined
  else do
    let s ← protocol cfg p s
    .ok (prepare cfg s)

end V4Builder

/-- `src/ip/builder.rs:52-57`. -/
def IpBuilder.v4 {B : Type} [Buffer B] (cfg : Cfg) (s : IpBuilder B) : Outcome (V4Builder B) := do
  let v ← V4Builder.«with» cfg s.buffer
  .ok { v with finalizer := v.finalizer.extend s.finalizer }

/-- `src/ip/builder.rs:60-65`. -/
def IpBuilder.v6 {B : Type} [Buffer B] (s : IpBuilder B) : Outcome (V6Builder B) := do
  let v ← V6Builder.«with» s.buffer
  .ok { v with finalizer := v.finalizer.extend s.finalizer }

/-! ## UDP -/

/-- `src/udp/builder.rs:28-34`. -/
structure UdpBuilder (B : Type) where
  buffer : B
  finalizer : Finalization
  ip : Nat × Nat
  payload : Bool

namespace UdpBuilder
variable {B : Type} [Buffer B]

/-- `src/udp/builder.rs:37-50`. -/
def «with» (cfg : Cfg) (buffer : B) : Outcome (UdpBuilder B) := do
  let ip := (Buffer.offset buffer, Buffer.length buffer)
  let buffer ← onBuffer (Buffer.next cfg Udp.headerMin) buffer
  .ok ⟨buffer, [], ip, false⟩

/-- `Packet::unchecked(self.buffer.data_mut()).set_…(value)?; Ok(self)` (`src/udp/builder.rs:85-94`). -/
def setter (cfg : Cfg) (f : Mut Bytes Unit) (s : UdpBuilder B) : Outcome (UdpBuilder B) := do
  let buffer ← onBuffer (Buffer.modifyData cfg f) s.buffer
  .ok { s with buffer := buffer }

/-- `src/udp/builder.rs:85-88`. -/
def source (cfg : Cfg) (v : U16) (s : UdpBuilder B) := setter cfg (Udp.setSource v) s
/-- `src/udp/builder.rs:91-94`. -/
def destination (cfg : Cfg) (v : U16) (s : UdpBuilder B) := setter cfg (Udp.setDestination v) s

/-- `src/udp/builder.rs:97-110`. -/
def setPayload (cfg : Cfg) (v : Bytes) (s : UdpBuilder B) : Outcome (UdpBuilder B) :=
  if s.payload then .err .alreadyDefined
  else do
    let buffer ← onBuffer (appendAll cfg v) s.buffer
    .ok { s with buffer := buffer, payload := true }

/-- `if let Ok(packet) = v4::no_payload(ip) … else if let Ok(packet) = v6::no_payload(ip) …`
(`src/udp/builder.rs:124-132`). -/
def checksumIn (cfg : Cfg) (ip udp : Bytes) : Outcome U16 :=
  match V4.noPayload ip with
  | .ok p => Udp.checksumOf cfg (.v4 p) udp
  | .panic => .panic
  | .err _ =>
    match V6.noPayload ip with
    | .ok p => Udp.checksumOf cfg (.v6 p) udp
    | .panic => .panic
    | .err _ => .err .invalidPacket

/-- The part of the closure that works on `udp` (`src/udp/builder.rs:121-137`). -/
def inner (cfg : Cfg) (ip : Bytes) (length : Nat) : Mut Bytes Unit := do
  writeU16 4 (BitVec.ofNat 16 length)
  let c ← Mut.read (checksumIn cfg ip)
  writeU16 6 c

/-- The closure of `src/udp/builder.rs:116-138`: `before`/`after` split at the end of the IP header,
`ip = before[ip.0 ..]`, `udp = after[.. length]`. -/
def finalizerOf (cfg : Cfg) (ip : Nat × Nat) (length : Nat) : Finalizer := fun out =>
  match splitAt out (ip.1 + ip.2) with
  | .ok (before, after) =>
    match sliceFrom before ip.1, sliceTo after length with
    | .ok ipb, .ok udp =>
      ((inner cfg ipb length udp).1, before ++ (inner cfg ipb length udp).2 ++ after.drop length)
    | _, _ => (.panic, out)
  | _ => (.panic, out)

/-- `src/udp/builder.rs:112-139`. -/
def prepare (cfg : Cfg) (s : UdpBuilder B) : UdpBuilder B :=
  { s with finalizer := s.finalizer.add (finalizerOf cfg s.ip (Buffer.length s.buffer)) }

/-- `src/udp/builder.rs:56-62`. -/
def build (cfg : Cfg) (s : UdpBuilder B) : Outcome Bytes :=
  let s := prepare cfg s
  buildTail s.buffer s.finalizer

end UdpBuilder

/-! ## TCP -/

/-- `src/tcp/builder.rs:29-37` (the `options` flag is never read). -/
structure TcpBuilder (B : Type) where
  buffer : B
  finalizer : Finalization
  ip : Nat × Nat
  payload : Bool
  payloadLength : Nat

namespace TcpBuilder
variable {B : Type} [Buffer B]

/-- `src/tcp/builder.rs:40-61`: `data_mut()[12] = ((min() / 4) as u8) << 4`. -/
def «with» (cfg : Cfg) (buffer : B) : Outcome (TcpBuilder B) := do
  let ip := (Buffer.offset buffer, Buffer.length buffer)
  let buffer ← onBuffer (Buffer.next cfg Tcp.headerMin) buffer
  let buffer ← onBuffer (Buffer.modifyData cfg
    (setIdx 12 (BitVec.ofNat 8 (Tcp.headerMin / 4) <<< 4))) buffer
  .ok ⟨buffer, [], ip, false, 0⟩

/-- `Packet::unchecked(self.buffer.data_mut()).set_…(value)?; Ok(self)` (`src/tcp/builder.rs:96-135`). -/
def setter (cfg : Cfg) (f : Mut Bytes Unit) (s : TcpBuilder B) : Outcome (TcpBuilder B) := do
  let buffer ← onBuffer (Buffer.modifyData cfg f) s.buffer
  .ok { s with buffer := buffer }

/-- `src/tcp/builder.rs:96-99`. -/
def source (cfg : Cfg) (v : U16) (s : TcpBuilder B) := setter cfg (Tcp.setSource v) s
/-- `src/tcp/builder.rs:102-105`. -/
def destination (cfg : Cfg) (v : U16) (s : TcpBuilder B) := setter cfg (Tcp.setDestination v) s
/-- `src/tcp/builder.rs:108-111`. -/
def sequence (cfg : Cfg) (v : U32) (s : TcpBuilder B) := setter cfg (Tcp.setSequence v) s
/-- `src/tcp/builder.rs:114-117`. -/
def acknowledgment (cfg : Cfg) (v : U32) (s : TcpBuilder B) :=
  setter cfg (Tcp.setAcknowledgment v) s
/-- `src/tcp/builder.rs:120-123`. -/
def flags (cfg : Cfg) (v : TcpFlags) (s : TcpBuilder B) := setter cfg (Tcp.setFlags v) s
/-- `src/tcp/builder.rs:126-129`. -/
def window (cfg : Cfg) (v : U16) (s : TcpBuilder B) := setter cfg (Tcp.setWindow v) s
/-- `src/tcp/builder.rs:132-135`. -/
def pointer (cfg : Cfg) (v : U16) (s : TcpBuilder B) := setter cfg (Tcp.setPointer v) s

/-- `src/tcp/builder.rs:138-152` (`payload_length` counts the bytes appended). -/
def setPayload (cfg : Cfg) (v : Bytes) (s : TcpBuilder B) : Outcome (TcpBuilder B) :=
  if s.payload then .err .alreadyDefined
  else do
    let buffer ← onBuffer (appendAll cfg v) s.buffer
    .ok { s with buffer := buffer, payload := true, payloadLength := s.payloadLength + v.length }

/-- The part of the closure that works on `tcp` (`src/tcp/builder.rs:165-176`). -/
def inner (cfg : Cfg) (ip : Bytes) (length payloadLength : Nat) : Mut Bytes Unit := do
  let flags ← Mut.read (idx · 12)
  let flags := flags &&& 0b1111#8
  let headerLength ← Mut.read fun _ => subUsize cfg length payloadLength
  let offset := BitVec.ofNat 8 (headerLength / 4)
  setIdx 12 ((offset <<< 4) ||| flags)
  let c ← Mut.read fun tcp => do
    let p ← IpPacket.noPayload ip
    Tcp.checksumOf cfg p tcp
  writeU16 16 c

/-- The closure of `src/tcp/builder.rs:159-177`. -/
def finalizerOf (cfg : Cfg) (ip : Nat × Nat) (length payloadLength : Nat) : Finalizer := fun out =>
  match splitAt out (ip.1 + ip.2) with
  | .ok (before, after) =>
    match sliceFrom before ip.1, sliceTo after length with
    | .ok ipb, .ok tcp =>
      ((inner cfg ipb length payloadLength tcp).1,
        before ++ (inner cfg ipb length payloadLength tcp).2 ++ after.drop length)
    | _, _ => (.panic, out)
  | _ => (.panic, out)

/-- `src/tcp/builder.rs:154-178`. -/
def prepare (cfg : Cfg) (s : TcpBuilder B) : TcpBuilder B :=
  { s with
    finalizer := s.finalizer.add
      (finalizerOf cfg s.ip (Buffer.length s.buffer) s.payloadLength) }

/-- `src/tcp/builder.rs:67-73`. -/
def build (cfg : Cfg) (s : TcpBuilder B) : Outcome Bytes :=
  let s := prepare cfg s
  buildTail s.buffer s.finalizer

end TcpBuilder

/-! ## ICMP -/

/-- `src/icmp/builder.rs:26-29`. -/
structure IcmpBuilder (B : Type) where
  buffer : B
  finalizer : Finalization

namespace IcmpBuilder
variable {B : Type} [Buffer B]
/-- `src/icmp/builder.rs:32-37`. -/
def «with» (buffer : B) : Outcome (IcmpBuilder B) := .ok ⟨buffer, []⟩
/-- `src/icmp/builder.rs:43-45`. -/
def build (_ : IcmpBuilder B) : Outcome Bytes := .err .invalidPacket

/-- The closure of `src/icmp/builder.rs:84-90`. -/
def finalizerOf (cfg : Cfg) (offset length : Nat) : Finalizer := do
  let c ← Mut.read fun out => do
    let m ← slice out offset (offset + length)
    Icmp.checksumOf cfg m
  writeU16 (offset + 2) c

/-- `src/icmp/builder.rs:80-91`. -/
def prepare (cfg : Cfg) (fs : Finalization) (buffer : B) : Finalization :=
  fs.add (finalizerOf cfg (Buffer.offset buffer) (Buffer.length buffer))
end IcmpBuilder

/-- `src/icmp/echo/builder.rs:28-34`. -/
structure EchoBuilder (B : Type) where
  buffer : B
  finalizer : Finalization
  kind : Bool
  payload : Bool

namespace EchoBuilder
variable {B : Type} [Buffer B]

/-- `src/icmp/echo/builder.rs:37-47`. -/
def «with» (cfg : Cfg) (buffer : B) : Outcome (EchoBuilder B) := do
  let buffer ← onBuffer (Buffer.next cfg 8) buffer
  .ok ⟨buffer, [], false, false⟩

/-- A write through `self.buffer.data_mut()` (`src/icmp/echo/builder.rs:86-115`). -/
def setter (cfg : Cfg) (f : Mut Bytes Unit) (s : EchoBuilder B) : Outcome (EchoBuilder B) := do
  let buffer ← onBuffer (Buffer.modifyData cfg f) s.buffer
  .ok { s with buffer := buffer }

/-- `src/icmp/echo/builder.rs:86-91`. -/
def request (cfg : Cfg) (s : EchoBuilder B) :=
  setter cfg (setIdx 0 IcmpKind.echoRequest.toWire) { s with kind := true }
/-- `src/icmp/echo/builder.rs:94-99`. -/
def reply (cfg : Cfg) (s : EchoBuilder B) :=
  setter cfg (setIdx 0 IcmpKind.echoReply.toWire) { s with kind := true }
/-- `src/icmp/echo/builder.rs:102-107`. -/
def identifier (cfg : Cfg) (v : U16) (s : EchoBuilder B) := setter cfg (writeU16 4 v) s
/-- `src/icmp/echo/builder.rs:110-115`. -/
def sequence (cfg : Cfg) (v : U16) (s : EchoBuilder B) := setter cfg (writeU16 6 v) s

/-- `src/icmp/echo/builder.rs:118-131`: a second payload is `InvalidPacket` here. -/
def setPayload (cfg : Cfg) (v : Bytes) (s : EchoBuilder B) : Outcome (EchoBuilder B) :=
  if s.payload then .err .invalidPacket
  else do
    let buffer ← onBuffer (appendAll cfg v) s.buffer
    .ok { s with buffer := buffer, payload := true }

/-- `src/icmp/echo/builder.rs:53-63`. -/
def build (cfg : Cfg) (s : EchoBuilder B) : Outcome Bytes :=
  if ¬ s.kind then .err .invalidPacket
  else buildTail s.buffer (IcmpBuilder.prepare cfg s.finalizer s.buffer)

end EchoBuilder

/-- `src/icmp/timestamp/builder.rs:28-33`. -/
structure TimestampBuilder (B : Type) where
  buffer : B
  finalizer : Finalization
  kind : Bool

namespace TimestampBuilder
variable {B : Type} [Buffer B]

/-- `src/icmp/timestamp/builder.rs:36-45`. -/
def «with» (cfg : Cfg) (buffer : B) : Outcome (TimestampBuilder B) := do
  let buffer ← onBuffer (Buffer.next cfg 20) buffer
  .ok ⟨buffer, [], false⟩

/-- A write through `self.buffer.data_mut()` (`src/icmp/timestamp/builder.rs:84-138`). -/
def setter (cfg : Cfg) (f : Mut Bytes Unit) (s : TimestampBuilder B) :
    Outcome (TimestampBuilder B) := do
  let buffer ← onBuffer (Buffer.modifyData cfg f) s.buffer
  .ok { s with buffer := buffer }

/-- `src/icmp/timestamp/builder.rs:84-89`. -/
def request (cfg : Cfg) (s : TimestampBuilder B) :=
  setter cfg (setIdx 0 IcmpKind.timestampRequest.toWire) { s with kind := true }
/-- `src/icmp/timestamp/builder.rs:92-97`. -/
def reply (cfg : Cfg) (s : TimestampBuilder B) :=
  setter cfg (setIdx 0 IcmpKind.timestampReply.toWire) { s with kind := true }
/-- `src/icmp/timestamp/builder.rs:100-105`. -/
def identifier (cfg : Cfg) (v : U16) (s : TimestampBuilder B) := setter cfg (writeU16 4 v) s
/-- `src/icmp/timestamp/builder.rs:108-113`. -/
def sequence (cfg : Cfg) (v : U16) (s : TimestampBuilder B) := setter cfg (writeU16 6 v) s
/-- `src/icmp/timestamp/builder.rs:116-121`. -/
def originate (cfg : Cfg) (v : U32) (s : TimestampBuilder B) := setter cfg (writeU32 8 v) s
/-- `src/icmp/timestamp/builder.rs:124-129`. -/
def receive (cfg : Cfg) (v : U32) (s : TimestampBuilder B) := setter cfg (writeU32 12 v) s
/-- `src/icmp/timestamp/builder.rs:132-137`. -/
def transmit (cfg : Cfg) (v : U32) (s : TimestampBuilder B) := setter cfg (writeU32 16 v) s

/-- `src/icmp/timestamp/builder.rs:51-61`. -/
def build (cfg : Cfg) (s : TimestampBuilder B) : Outcome Bytes :=
  if ¬ s.kind then .err .invalidPacket
  else buildTail s.buffer (IcmpBuilder.prepare cfg s.finalizer s.buffer)

end TimestampBuilder

/-- `src/icmp/information/builder.rs:27-32`. -/
structure InformationBuilder (B : Type) where
  buffer : B
  finalizer : Finalization
  kind : Bool

namespace InformationBuilder
variable {B : Type} [Buffer B]

/-- `src/icmp/information/builder.rs:35-44`. -/
def «with» (cfg : Cfg) (buffer : B) : Outcome (InformationBuilder B) := do
  let buffer ← onBuffer (Buffer.next cfg 8) buffer
  .ok ⟨buffer, [], false⟩

/-- A write through `self.buffer.data_mut()` (`src/icmp/information/builder.rs:83-113`). -/
def setter (cfg : Cfg) (f : Mut Bytes Unit) (s : InformationBuilder B) :
    Outcome (InformationBuilder B) := do
  let buffer ← onBuffer (Buffer.modifyData cfg f) s.buffer
  .ok { s with buffer := buffer }

/-- `src/icmp/information/builder.rs:83-88`. -/
def request (cfg : Cfg) (s : InformationBuilder B) :=
  setter cfg (setIdx 0 IcmpKind.informationRequest.toWire) { s with kind := true }
/-- `src/icmp/information/builder.rs:91-96`. -/
def reply (cfg : Cfg) (s : InformationBuilder B) :=
  setter cfg (setIdx 0 IcmpKind.informationReply.toWire) { s with kind := true }
/-- `src/icmp/information/builder.rs:99-104`. -/
def identifier (cfg : Cfg) (v : U16) (s : InformationBuilder B) := setter cfg (writeU16 4 v) s
/-- `src/icmp/information/builder.rs:107-112`. -/
def sequence (cfg : Cfg) (v : U16) (s : InformationBuilder B) := setter cfg (writeU16 6 v) s

/-- `src/icmp/information/builder.rs:50-60`. -/
def build (cfg : Cfg) (s : InformationBuilder B) : Outcome Bytes :=
  if ¬ s.kind then .err .invalidPacket
  else buildTail s.buffer (IcmpBuilder.prepare cfg s.finalizer s.buffer)

end InformationBuilder

namespace IcmpBuilder
variable {B : Type} [Buffer B]
/-- `src/icmp/builder.rs:56-61`. -/
def echo (cfg : Cfg) (s : IcmpBuilder B) : Outcome (EchoBuilder B) := do
  let e ← EchoBuilder.«with» cfg s.buffer
  .ok { e with finalizer := e.finalizer.extend s.finalizer }
/-- `src/icmp/builder.rs:64-69`. -/
def information (cfg : Cfg) (s : IcmpBuilder B) : Outcome (InformationBuilder B) := do
  let e ← InformationBuilder.«with» cfg s.buffer
  .ok { e with finalizer := e.finalizer.extend s.finalizer }
/-- `src/icmp/builder.rs:72-77`. -/
def timestamp (cfg : Cfg) (s : IcmpBuilder B) : Outcome (TimestampBuilder B) := do
  let e ← TimestampBuilder.«with» cfg s.buffer
  .ok { e with finalizer := e.finalizer.extend s.finalizer }
end IcmpBuilder

namespace V4Builder
variable {B : Type} [Buffer B]
/-- `src/ip/v4/builder.rs:91-108,210-211`, `udp()`. -/
def udp (cfg : Cfg) (s : V4Builder B) : Outcome (UdpBuilder B) := do
  let s ← enter cfg .udp s
  let u ← UdpBuilder.«with» cfg s.buffer
  .ok { u with finalizer := u.finalizer.extend s.finalizer }
/-- `src/ip/v4/builder.rs:91-108,207-208`, `tcp()`. -/
def tcp (cfg : Cfg) (s : V4Builder B) : Outcome (TcpBuilder B) := do
  let s ← enter cfg .tcp s
  let t ← TcpBuilder.«with» cfg s.buffer
  .ok { t with finalizer := t.finalizer.extend s.finalizer }
/-- `src/ip/v4/builder.rs:91-108,204-205`, `icmp()`. -/
def icmp (cfg : Cfg) (s : V4Builder B) : Outcome (IcmpBuilder B) := do
  let s ← enter cfg .icmp s
  let i ← IcmpBuilder.«with» s.buffer
  .ok { i with finalizer := i.finalizer.extend s.finalizer }
end V4Builder

/-! ## Histories of builder calls -/

/-- The chainable calls of `ether::Builder` (`src/ether/builder.rs:79-113`). -/
inductive EtherOp where
  | destination (v : HwAddr)
  | source (v : HwAddr)
  | protocol (v : EtherProtocol)
  | payload (v : Bytes)

/-- The chainable calls of `ip::v4::Builder` (`src/ip/v4/builder.rs:112-179`). -/
inductive V4Op where
  | dscp (v : U8)
  | ecn (v : U8)
  | id (v : U16)
  | flags (v : V4Flags)
  | offset (v : U16)
  | ttl (v : U8)
  | source (v : Ipv4Addr)
  | destination (v : Ipv4Addr)
  | protocol (v : IpProtocol)
  | payload (v : Bytes)

/-- The chainable calls of `udp::Builder` (`src/udp/builder.rs:85-110`). -/
inductive UdpOp where
  | source (v : U16)
  | destination (v : U16)
  | payload (v : Bytes)

/-- The chainable calls of `tcp::Builder` (`src/tcp/builder.rs:96-152`). -/
inductive TcpOp where
  | source (v : U16)
  | destination (v : U16)
  | sequence (v : U32)
  | acknowledgment (v : U32)
  | flags (v : TcpFlags)
  | window (v : U16)
  | pointer (v : U16)
  | payload (v : Bytes)

/-- The chainable calls of `icmp::echo::Builder` (`src/icmp/echo/builder.rs:86-131`). -/
inductive EchoOp where
  | request
  | reply
  | identifier (v : U16)
  | sequence (v : U16)
  | payload (v : Bytes)

/-- The chainable calls of `icmp::timestamp::Builder` (`src/icmp/timestamp/builder.rs:84-138`). -/
inductive TimestampOp where
  | request
  | reply
  | identifier (v : U16)
  | sequence (v : U16)
  | originate (v : U32)
  | receive (v : U32)
  | transmit (v : U32)

/-- The chainable calls of `icmp::information::Builder` (`src/icmp/information/builder.rs:83-113`). -/
inductive InformationOp where
  | request
  | reply
  | identifier (v : U16)
  | sequence (v : U16)

section
variable {B : Type} [Buffer B]

/-- One call on an `ether::Builder` (`src/ether/builder.rs:79-113`). -/
def EtherOp.run (cfg : Cfg) : EtherOp → EtherBuilder B → Outcome (EtherBuilder B)
  | .destination v => EtherBuilder.destination cfg v
  | .source v => EtherBuilder.source cfg v
  | .protocol v => EtherBuilder.protocol cfg v
  | .payload v => EtherBuilder.setPayload cfg v

/-- One call on an `ip::v4::Builder` (`src/ip/v4/builder.rs:112-179`). -/
def V4Op.run (cfg : Cfg) : V4Op → V4Builder B → Outcome (V4Builder B)
  | .dscp v => V4Builder.dscp cfg v
  | .ecn v => V4Builder.ecn cfg v
  | .id v => V4Builder.id cfg v
  | .flags v => V4Builder.flags cfg v
  | .offset v => V4Builder.offset cfg v
  | .ttl v => V4Builder.ttl cfg v
  | .source v => V4Builder.source cfg v
  | .destination v => V4Builder.destination cfg v
  | .protocol v => V4Builder.protocol cfg v
  | .payload v => V4Builder.setPayload cfg v

/-- One call on a `udp::Builder` (`src/udp/builder.rs:85-110`). -/
def UdpOp.run (cfg : Cfg) : UdpOp → UdpBuilder B → Outcome (UdpBuilder B)
  | .source v => UdpBuilder.source cfg v
  | .destination v => UdpBuilder.destination cfg v
  | .payload v => UdpBuilder.setPayload cfg v

/-- One call on a `tcp::Builder` (`src/tcp/builder.rs:96-152`). -/
def TcpOp.run (cfg : Cfg) : TcpOp → TcpBuilder B → Outcome (TcpBuilder B)
  | .source v => TcpBuilder.source cfg v
  | .destination v => TcpBuilder.destination cfg v
  | .sequence v => TcpBuilder.sequence cfg v
  | .acknowledgment v => TcpBuilder.acknowledgment cfg v
  | .flags v => TcpBuilder.flags cfg v
  | .window v => TcpBuilder.window cfg v
  | .pointer v => TcpBuilder.pointer cfg v
  | .payload v => TcpBuilder.setPayload cfg v

/-- One call on an `icmp::echo::Builder` (`src/icmp/echo/builder.rs:86-131`). -/
def EchoOp.run (cfg : Cfg) : EchoOp → EchoBuilder B → Outcome (EchoBuilder B)
  | .request => EchoBuilder.request cfg
  | .reply => EchoBuilder.reply cfg
  | .identifier v => EchoBuilder.identifier cfg v
  | .sequence v => EchoBuilder.sequence cfg v
  | .payload v => EchoBuilder.setPayload cfg v

/-- One call on an `icmp::timestamp::Builder` (`src/icmp/timestamp/builder.rs:84-138`). -/
def TimestampOp.run (cfg : Cfg) : TimestampOp → TimestampBuilder B → Outcome (TimestampBuilder B)
  | .request => TimestampBuilder.request cfg
  | .reply => TimestampBuilder.reply cfg
  | .identifier v => TimestampBuilder.identifier cfg v
  | .sequence v => TimestampBuilder.sequence cfg v
  | .originate v => TimestampBuilder.originate cfg v
  | .receive v => TimestampBuilder.receive cfg v
  | .transmit v => TimestampBuilder.transmit cfg v

/-- One call on an `icmp::information::Builder` (`src/icmp/information/builder.rs:83-113`). -/
def InformationOp.run (cfg : Cfg) :
    InformationOp → InformationBuilder B → Outcome (InformationBuilder B)
  | .request => InformationBuilder.request cfg
  | .reply => InformationBuilder.reply cfg
  | .identifier v => InformationBuilder.identifier cfg v
  | .sequence v => InformationBuilder.sequence cfg v

end

/-- A chain of builder calls `b.f()?.g()?.h()?` (the calls return `Result<Self>`, for instance
`src/ether/builder.rs:79-113`). -/
def runOps {σ Op : Type} (run : Op → σ → Outcome σ) : List Op → σ → Outcome σ
  | [], s => .ok s
  | op :: ops, s => do
    let s ← run op s
    runOps run ops s

end Verif

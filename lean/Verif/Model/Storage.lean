import Verif.Model.Programs

/-!
# What a program leaves in the storage it was lent

`buffer::Slice` works in a `&mut [u8]` of the caller, and `build()` hands out its first `used` bytes
(`src/buffer/slice.rs:21-47`).  When the packet is dropped the caller has the whole storage back.  The
programs below are those of `Model/Programs.lean`; they also return the buffer `build()` was called on.
-/

namespace Verif
variable {B : Type} [Buffer B]

/-- `IcmpInner.build`, with the buffer it was called on (`src/icmp/builder.rs:43-77`). -/
def IcmpInner.buildAt (cfg : Cfg) (s : IcmpBuilder B) : IcmpInner → Outcome (Bytes × B)
  | .none => do
    let out ← IcmpBuilder.build s
    .ok (out, s.buffer)
  | .echo ops => do
    let e ← IcmpBuilder.echo cfg s
    let e ← runOps (EchoOp.run cfg) ops e
    let out ← EchoBuilder.build cfg e
    .ok (out, e.buffer)
  | .timestamp ops => do
    let e ← IcmpBuilder.timestamp cfg s
    let e ← runOps (TimestampOp.run cfg) ops e
    let out ← TimestampBuilder.build cfg e
    .ok (out, e.buffer)
  | .information ops => do
    let e ← IcmpBuilder.information cfg s
    let e ← runOps (InformationOp.run cfg) ops e
    let out ← InformationBuilder.build cfg e
    .ok (out, e.buffer)

/-- `Inner.build`, with the buffer it was called on (`src/ip/v4/builder.rs:64-70,93-108`). -/
def Inner.buildAt (cfg : Cfg) (s : V4Builder B) : Inner → Outcome (Bytes × B)
  | .plain => do
    let out ← V4Builder.build cfg s
    .ok (out, s.buffer)
  | .udp ops => do
    let u ← V4Builder.udp cfg s
    let u ← runOps (UdpOp.run cfg) ops u
    let out ← UdpBuilder.build cfg u
    .ok (out, u.buffer)
  | .tcp ops => do
    let t ← V4Builder.tcp cfg s
    let t ← runOps (TcpOp.run cfg) ops t
    let out ← TcpBuilder.build cfg t
    .ok (out, t.buffer)
  | .icmp inner => do
    let i ← V4Builder.icmp cfg s
    inner.buildAt cfg i

/-- `etherProgram`, with the buffer `build()` was called on (`src/ether/builder.rs:36-56`). -/
def etherAt (cfg : Cfg) (b : B) (ops : List EtherOp) : Outcome (Bytes × B) := do
  let e ← EtherBuilder.«with» cfg b
  let e ← runOps (EtherOp.run cfg) ops e
  let out ← EtherBuilder.build e
  .ok (out, e.buffer)

/-- `ipv4Program`, with the buffer `build()` was called on (`src/ip/v4/builder.rs:39-57`). -/
def ipv4At (cfg : Cfg) (b : B) (vops : List V4Op) (inner : Inner) : Outcome (Bytes × B) := do
  let v ← V4Builder.«with» cfg b
  let v ← runOps (V4Op.run cfg) vops v
  inner.buildAt cfg v

/-- `ethernetProgram`, with the buffer `build()` was called on (`src/ether/builder.rs:36-46,116-145`,
`src/ip/builder.rs:52-57`). -/
def ethernetAt (cfg : Cfg) (b : B) (eops : List EtherOp) (vops : List V4Op) (inner : Inner) :
    Outcome (Bytes × B) := do
  let e ← EtherBuilder.«with» cfg b
  let e ← runOps (EtherOp.run cfg) eops e
  let i ← EtherBuilder.ip e
  let v ← IpBuilder.v4 cfg i
  let v ← runOps (V4Op.run cfg) vops v
  inner.buildAt cfg v

/-- `icmpProgram`, with the buffer `build()` was called on (`src/icmp/builder.rs:32-37`). -/
def icmpAt (cfg : Cfg) (b : B) (inner : IcmpInner) : Outcome (Bytes × B) := do
  let i ← IcmpBuilder.«with» b
  inner.buildAt cfg i

/-- The storage after a build on a static buffer: `into_inner` lends out `inner[0 .. used]`
(`src/buffer/slice.rs:45-47`), in which the finalizers work and which then holds the packet; what is
behind it stays as the builder left it. -/
def storageAfter : Bytes × Slice → Bytes
  | (packet, b) => packet ++ b.inner.drop b.used

end Verif

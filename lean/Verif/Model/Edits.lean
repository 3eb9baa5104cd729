import Verif.Model.Programs

/-!
# Editing a packet under construction through `as_packet_mut()`

`builder.as_packet_mut()?.set_…(value)?;` borrows the builder, so the program goes on with the same builder.
On an error the program stops, as with a chained call.
-/

namespace Verif
variable {B : Type} [Buffer B]

/-- `Packet::new(self.buffer.data_mut())` and one setter on the result (`src/ether/builder.rs:71-75` and the
same lines of the other builders). -/
def editing (new : Bytes → Outcome Bytes) (f : Mut Bytes Unit) : Mut Bytes Unit := fun d =>
  match new d with
  | .ok p => f p
  | .err e => (.err e, d)
  | .panic => (.panic, d)

/-- The setters of `ether::Packet`, as data (`src/ether/packet.rs:145-164`). -/
inductive Ether.Set where
  | destination (v : HwAddr)
  | source (v : HwAddr)
  | protocol (v : EtherProtocol)

/-- `src/ether/packet.rs:145-164`. -/
def Ether.Set.run : Ether.Set → Mut Bytes Unit
  | .destination v => Ether.setDestination v
  | .source v => Ether.setSource v
  | .protocol v => Ether.setProtocol v

/-- `builder.as_packet_mut()?.set_…(value)?;`, `src/ether/builder.rs:71-75`. -/
def EtherBuilder.edit (cfg : Cfg) (e : Ether.Set) (s : EtherBuilder B) : Outcome (EtherBuilder B) :=
  EtherBuilder.setter cfg (editing Ether.new e.run) s
/-- `src/ip/v4/builder.rs:85-89`. -/
def V4Builder.edit (cfg : Cfg) (e : V4.Set) (s : V4Builder B) : Outcome (V4Builder B) :=
  V4Builder.setter cfg (editing V4.new e.run) s
/-- `src/udp/builder.rs:77-81`. -/
def UdpBuilder.edit (cfg : Cfg) (e : Udp.Set) (s : UdpBuilder B) : Outcome (UdpBuilder B) :=
  UdpBuilder.setter cfg (editing Udp.new e.run) s
/-- `src/tcp/builder.rs:88-92`. -/
def TcpBuilder.edit (cfg : Cfg) (e : Tcp.Set) (s : TcpBuilder B) : Outcome (TcpBuilder B) :=
  TcpBuilder.setter cfg (editing Tcp.new e.run) s
/-- `src/icmp/echo/builder.rs:78-82`. -/
def EchoBuilder.edit (cfg : Cfg) (e : Echo.Set) (s : EchoBuilder B) : Outcome (EchoBuilder B) :=
  EchoBuilder.setter cfg (editing Echo.new e.run) s
/-- `src/icmp/timestamp/builder.rs:76-80`. -/
def TimestampBuilder.edit (cfg : Cfg) (e : Timestamp.Set) (s : TimestampBuilder B) :
    Outcome (TimestampBuilder B) :=
  TimestampBuilder.setter cfg (editing Timestamp.new e.run) s
/-- `src/icmp/information/builder.rs:75-79`. -/
def InformationBuilder.edit (cfg : Cfg) (e : Information.Set) (s : InformationBuilder B) :
    Outcome (InformationBuilder B) :=
  InformationBuilder.setter cfg (editing Information.new e.run) s

/-- One step of a program: a call on the builder, or an edit through `as_packet_mut()` (a user's program; the edits
are `src/ether/builder.rs:71-75` and the same impl in the other builders). -/
inductive Step (Op Edit : Type) where
  | call (op : Op)
  | edit (e : Edit)

/-- What a step does, given what calls and edits do (no code of its own in `src/`: the cases are
`src/ether/builder.rs:71-75` and `:79-113`, and so on). -/
def Step.run {Op Edit σ : Type} (call : Op → σ → Outcome σ) (edit : Edit → σ → Outcome σ) :
    Step Op Edit → σ → Outcome σ
  | .call op => call op
  | .edit e => edit e

/-- What a program with edits does with an `icmp::Builder` (`src/icmp/builder.rs:55-77`). -/
inductive IcmpSteps where
  | none
  | echo (steps : List (Step EchoOp Echo.Set))
  | timestamp (steps : List (Step TimestampOp Timestamp.Set))
  | information (steps : List (Step InformationOp Information.Set))

/-- `IcmpInner.build` with edits (`src/icmp/builder.rs:43-45,55-77`). -/
def IcmpSteps.build (cfg : Cfg) (s : IcmpBuilder B) : IcmpSteps → Outcome Bytes
  | .none => IcmpBuilder.build s
  | .echo steps => do
    let e ← IcmpBuilder.echo cfg s
    let e ← runOps (Step.run (EchoOp.run cfg) (EchoBuilder.edit cfg)) steps e
    EchoBuilder.build cfg e
  | .timestamp steps => do
    let e ← IcmpBuilder.timestamp cfg s
    let e ← runOps (Step.run (TimestampOp.run cfg) (TimestampBuilder.edit cfg)) steps e
    TimestampBuilder.build cfg e
  | .information steps => do
    let e ← IcmpBuilder.information cfg s
    let e ← runOps (Step.run (InformationOp.run cfg) (InformationBuilder.edit cfg)) steps e
    InformationBuilder.build cfg e

/-- What a program with edits does with an `ip::v4::Builder` once it is done with it
(`src/ip/v4/builder.rs:64-70,93-108`). -/
inductive InnerSteps where
  | plain
  | udp (steps : List (Step UdpOp Udp.Set))
  | tcp (steps : List (Step TcpOp Tcp.Set))
  | icmp (inner : IcmpSteps)

/-- `Inner.build` with edits (`src/ip/v4/builder.rs:64-70,93-108`). -/
def InnerSteps.build (cfg : Cfg) (s : V4Builder B) : InnerSteps → Outcome Bytes
  | .plain => V4Builder.build cfg s
  | .udp steps => do
    let u ← V4Builder.udp cfg s
    let u ← runOps (Step.run (UdpOp.run cfg) (UdpBuilder.edit cfg)) steps u
    UdpBuilder.build cfg u
  | .tcp steps => do
    let t ← V4Builder.tcp cfg s
    let t ← runOps (Step.run (TcpOp.run cfg) (TcpBuilder.edit cfg)) steps t
    TcpBuilder.build cfg t
  | .icmp inner => do
    let i ← V4Builder.icmp cfg s
    inner.build cfg i

/-- `ipv4Program` with edits (`src/ip/v4/builder.rs:39-57`). -/
def ipv4Steps (cfg : Cfg) (b : B) (vsteps : List (Step V4Op V4.Set)) (inner : InnerSteps) :
    Outcome Bytes := do
  let v ← V4Builder.«with» cfg b
  let v ← runOps (Step.run (V4Op.run cfg) (V4Builder.edit cfg)) vsteps v
  inner.build cfg v

/-- `etherProgram` with edits (`src/ether/builder.rs:36-56`). -/
def etherSteps (cfg : Cfg) (b : B) (esteps : List (Step EtherOp Ether.Set)) : Outcome Bytes := do
  let e ← EtherBuilder.«with» cfg b
  let e ← runOps (Step.run (EtherOp.run cfg) (EtherBuilder.edit cfg)) esteps e
  EtherBuilder.build e

/-- `ethernetProgram` with edits (`src/ether/builder.rs:116-145`, `src/ip/builder.rs:52-57`). -/
def ethernetSteps (cfg : Cfg) (b : B) (esteps : List (Step EtherOp Ether.Set))
    (vsteps : List (Step V4Op V4.Set)) (inner : InnerSteps) : Outcome Bytes := do
  let e ← EtherBuilder.«with» cfg b
  let e ← runOps (Step.run (EtherOp.run cfg) (EtherBuilder.edit cfg)) esteps e
  let i ← EtherBuilder.ip e
  let v ← IpBuilder.v4 cfg i
  let v ← runOps (Step.run (V4Op.run cfg) (V4Builder.edit cfg)) vsteps v
  inner.build cfg v

/-- `icmpProgram` with edits (`src/icmp/builder.rs:32-37`). -/
def icmpSteps (cfg : Cfg) (b : B) (inner : IcmpSteps) : Outcome Bytes := do
  let i ← IcmpBuilder.«with» b
  inner.build cfg i

end Verif

import Verif.Model.Programs

/-!
# Programs that add their own finalizers

`Builder::finalizer` (`src/builder.rs:93-94`) hands out the builder's `Finalization`, and a program may call
`b.finalizer().add(f)` between any two calls.  A call is an operation of the builder or such an `add`.
A Rust finalizer receives a `&mut [u8]` and cannot change the length; `Finalizer` here is any function.
-/

namespace Verif
variable {B : Type} [Buffer B]

/-- `b.finalizer().add(f)`, `src/ether/builder.rs:48-50` and `src/builder.rs:54-56`. -/
def EtherBuilder.addFinalizer (f : Finalizer) (s : EtherBuilder B) : EtherBuilder B :=
  { s with finalizer := s.finalizer.add f }
/-- `src/ip/builder.rs:35-37` and `src/builder.rs:54-56`. -/
def IpBuilder.addFinalizer (f : Finalizer) (s : IpBuilder B) : IpBuilder B :=
  { s with finalizer := s.finalizer.add f }
/-- `src/ip/v4/builder.rs:60-62` and `src/builder.rs:54-56`. -/
def V4Builder.addFinalizer (f : Finalizer) (s : V4Builder B) : V4Builder B :=
  { s with finalizer := s.finalizer.add f }
/-- `src/udp/builder.rs:52-54` and `src/builder.rs:54-56`. -/
def UdpBuilder.addFinalizer (f : Finalizer) (s : UdpBuilder B) : UdpBuilder B :=
  { s with finalizer := s.finalizer.add f }
/-- `src/tcp/builder.rs:63-65` and `src/builder.rs:54-56`. -/
def TcpBuilder.addFinalizer (f : Finalizer) (s : TcpBuilder B) : TcpBuilder B :=
  { s with finalizer := s.finalizer.add f }
/-- `src/icmp/builder.rs:39-41` and `src/builder.rs:54-56`. -/
def IcmpBuilder.addFinalizer (f : Finalizer) (s : IcmpBuilder B) : IcmpBuilder B :=
  { s with finalizer := s.finalizer.add f }
/-- `src/icmp/echo/builder.rs:49-51` and `src/builder.rs:54-56`. -/
def EchoBuilder.addFinalizer (f : Finalizer) (s : EchoBuilder B) : EchoBuilder B :=
  { s with finalizer := s.finalizer.add f }
/-- `src/icmp/timestamp/builder.rs:47-49` and `src/builder.rs:54-56`. -/
def TimestampBuilder.addFinalizer (f : Finalizer) (s : TimestampBuilder B) : TimestampBuilder B :=
  { s with finalizer := s.finalizer.add f }
/-- `src/icmp/information/builder.rs:46-48` and `src/builder.rs:54-56`. -/
def InformationBuilder.addFinalizer (f : Finalizer) (s : InformationBuilder B) : InformationBuilder B :=
  { s with finalizer := s.finalizer.add f }

/-- A call of a program: an operation of the builder, or `finalizer().add(f)` (`src/builder.rs:54-56,93-94`). -/
inductive Call (Op : Type) where
  | op (o : Op)
  | finalizer (f : Finalizer)

/-- The operations of a history of calls (of `src/builder.rs:89-98`: everything but `finalizer`). -/
def Call.op? {Op : Type} : Call Op → Option Op
  | .op o => some o
  | .finalizer _ => none

/-- The finalizers of a history of calls (`src/builder.rs:54-56`). -/
def Call.finalizer? {Op : Type} : Call Op → Option Finalizer
  | .op _ => none
  | .finalizer f => some f

/-- One call (`src/builder.rs:54-56,93-94`). -/
def Call.run {σ Op : Type} (run : Op → σ → Outcome σ) (add : Finalizer → σ → σ) : Call Op → σ → Outcome σ
  | .op o, s => run o s
  | .finalizer f, s => .ok (add f s)

/-- `IcmpInner` with finalizers (`src/icmp/builder.rs:43-77`). -/
inductive UserIcmp where
  | none
  | echo (calls : List (Call EchoOp))
  | timestamp (calls : List (Call TimestampOp))
  | information (calls : List (Call InformationOp))

/-- As `IcmpInner.build` (`src/icmp/builder.rs:43-77`). -/
def UserIcmp.build (cfg : Cfg) (s : IcmpBuilder B) : UserIcmp → Outcome Bytes
  | .none => IcmpBuilder.build s
  | .echo calls => do
    let e ← IcmpBuilder.echo cfg s
    let e ← runOps (Call.run (EchoOp.run cfg) EchoBuilder.addFinalizer) calls e
    EchoBuilder.build cfg e
  | .timestamp calls => do
    let e ← IcmpBuilder.timestamp cfg s
    let e ← runOps (Call.run (TimestampOp.run cfg) TimestampBuilder.addFinalizer) calls e
    TimestampBuilder.build cfg e
  | .information calls => do
    let e ← IcmpBuilder.information cfg s
    let e ← runOps (Call.run (InformationOp.run cfg) InformationBuilder.addFinalizer) calls e
    InformationBuilder.build cfg e

/-- `Inner` with finalizers; `fs` are added to the `icmp::Builder` (`src/ip/v4/builder.rs:64-70,93-108`). -/
inductive UserInner where
  | plain
  | udp (calls : List (Call UdpOp))
  | tcp (calls : List (Call TcpOp))
  | icmp (fs : List Finalizer) (inner : UserIcmp)

/-- As `Inner.build` (`src/ip/v4/builder.rs:64-70,93-108`). -/
def UserInner.build (cfg : Cfg) (s : V4Builder B) : UserInner → Outcome Bytes
  | .plain => V4Builder.build cfg s
  | .udp calls => do
    let u ← V4Builder.udp cfg s
    let u ← runOps (Call.run (UdpOp.run cfg) UdpBuilder.addFinalizer) calls u
    UdpBuilder.build cfg u
  | .tcp calls => do
    let t ← V4Builder.tcp cfg s
    let t ← runOps (Call.run (TcpOp.run cfg) TcpBuilder.addFinalizer) calls t
    TcpBuilder.build cfg t
  | .icmp fs inner => do
    let i ← V4Builder.icmp cfg s
    inner.build cfg (fs.foldl (fun i f => i.addFinalizer f) i)

/-- As `etherProgram`, with finalizers (`src/ether/builder.rs:36-56`). -/
def userEther (cfg : Cfg) (b : B) (calls : List (Call EtherOp)) : Outcome Bytes := do
  let e ← EtherBuilder.«with» cfg b
  let e ← runOps (Call.run (EtherOp.run cfg) EtherBuilder.addFinalizer) calls e
  EtherBuilder.build e

/-- As `ipv4Program`, with finalizers (`src/ip/v4/builder.rs:39-57`). -/
def userIpv4 (cfg : Cfg) (b : B) (vcalls : List (Call V4Op)) (inner : UserInner) : Outcome Bytes := do
  let v ← V4Builder.«with» cfg b
  let v ← runOps (Call.run (V4Op.run cfg) V4Builder.addFinalizer) vcalls v
  inner.build cfg v

/-- As `ethernetProgram`, with finalizers; `fs` are added to the `ip::Builder` (`src/ether/builder.rs:36-46,116-145`,
`src/ip/builder.rs:52-57`). -/
def userEthernet (cfg : Cfg) (b : B) (ecalls : List (Call EtherOp)) (fs : List Finalizer)
    (vcalls : List (Call V4Op)) (inner : UserInner) : Outcome Bytes := do
  let e ← EtherBuilder.«with» cfg b
  let e ← runOps (Call.run (EtherOp.run cfg) EtherBuilder.addFinalizer) ecalls e
  let i ← EtherBuilder.ip e
  let v ← IpBuilder.v4 cfg (fs.foldl (fun i f => i.addFinalizer f) i)
  let v ← runOps (Call.run (V4Op.run cfg) V4Builder.addFinalizer) vcalls v
  inner.build cfg v

end Verif

import Verif.Model.Builders

/-!
# Whole programs against the builder API

A program chains calls with `?`: `Builder::with(buffer)?.f()?.g()?...build()`.  Each definition below
composes the modelled calls and adds nothing of its own.
-/

namespace Verif
variable {B : Type} [Buffer B]

/-! ## `as_packet` -/

/-- `src/ether/builder.rs:65-69`. -/
def EtherBuilder.asPacket (cfg : Cfg) (s : EtherBuilder B) : Outcome Bytes := do
  let d ← Buffer.data cfg s.buffer
  Ether.new d
/-- `src/ip/v4/builder.rs:79-83`. -/
def V4Builder.asPacket (cfg : Cfg) (s : V4Builder B) : Outcome Bytes := do
  let d ← Buffer.data cfg s.buffer
  V4.new d
/-- `src/udp/builder.rs:71-75`. -/
def UdpBuilder.asPacket (cfg : Cfg) (s : UdpBuilder B) : Outcome Bytes := do
  let d ← Buffer.data cfg s.buffer
  Udp.new d
/-- `src/tcp/builder.rs:82-86`. -/
def TcpBuilder.asPacket (cfg : Cfg) (s : TcpBuilder B) : Outcome Bytes := do
  let d ← Buffer.data cfg s.buffer
  Tcp.new d
/-- `src/icmp/echo/builder.rs:72-76`. -/
def EchoBuilder.asPacket (cfg : Cfg) (s : EchoBuilder B) : Outcome Bytes := do
  let d ← Buffer.data cfg s.buffer
  Echo.new d
/-- `src/icmp/timestamp/builder.rs:70-74`. -/
def TimestampBuilder.asPacket (cfg : Cfg) (s : TimestampBuilder B) : Outcome Bytes := do
  let d ← Buffer.data cfg s.buffer
  Timestamp.new d
/-- `src/icmp/information/builder.rs:69-73`. -/
def InformationBuilder.asPacket (cfg : Cfg) (s : InformationBuilder B) : Outcome Bytes := do
  let d ← Buffer.data cfg s.buffer
  Information.new d

/-! ## Programs -/

/-- What a program does with an `icmp::Builder` (`src/icmp/builder.rs:43-77`). -/
inductive IcmpInner where
  /-- `.build()` right away. -/
  | none
  | echo (ops : List EchoOp)
  | timestamp (ops : List TimestampOp)
  | information (ops : List InformationOp)

/-- `.echo()?.ops…?.build()`, and so on (`src/icmp/builder.rs:43-77`). -/
def IcmpInner.build (cfg : Cfg) (s : IcmpBuilder B) : IcmpInner → Outcome Bytes
  | .none => IcmpBuilder.build s
  | .echo ops => do
    let e ← IcmpBuilder.echo cfg s
    let e ← runOps (EchoOp.run cfg) ops e
    EchoBuilder.build cfg e
  | .timestamp ops => do
    let e ← IcmpBuilder.timestamp cfg s
    let e ← runOps (TimestampOp.run cfg) ops e
    TimestampBuilder.build cfg e
  | .information ops => do
    let e ← IcmpBuilder.information cfg s
    let e ← runOps (InformationOp.run cfg) ops e
    InformationBuilder.build cfg e

/-- What a program does with an `ip::v4::Builder` once it has made its calls on it
(`src/ip/v4/builder.rs:64-70,93-108`). -/
inductive Inner where
  /-- `.build()` right away. -/
  | plain
  | udp (ops : List UdpOp)
  | tcp (ops : List TcpOp)
  | icmp (inner : IcmpInner)

/-- `.build()`, `.udp()?.ops…?.build()`, and so on (`src/ip/v4/builder.rs:64-70,93-108`). -/
def Inner.build (cfg : Cfg) (s : V4Builder B) : Inner → Outcome Bytes
  | .plain => V4Builder.build cfg s
  | .udp ops => do
    let u ← V4Builder.udp cfg s
    let u ← runOps (UdpOp.run cfg) ops u
    UdpBuilder.build cfg u
  | .tcp ops => do
    let t ← V4Builder.tcp cfg s
    let t ← runOps (TcpOp.run cfg) ops t
    TcpBuilder.build cfg t
  | .icmp inner => do
    let i ← V4Builder.icmp cfg s
    inner.build cfg i

/-- `ether::Builder::with(b)?.ops…?.build()` (`src/ether/builder.rs:36-56`). -/
def etherProgram (cfg : Cfg) (b : B) (ops : List EtherOp) : Outcome Bytes := do
  let e ← EtherBuilder.«with» cfg b
  let e ← runOps (EtherOp.run cfg) ops e
  EtherBuilder.build e

/-- `ip::v4::Builder::with(b)?.vops…?` followed by `inner` (`src/ip/v4/builder.rs:39-57`). -/
def ipv4Program (cfg : Cfg) (b : B) (vops : List V4Op) (inner : Inner) : Outcome Bytes := do
  let v ← V4Builder.«with» cfg b
  let v ← runOps (V4Op.run cfg) vops v
  inner.build cfg v

/-- `ether::Builder::with(b)?.eops…?.ip()?.v4()?.vops…?` followed by `inner` (`src/ether/builder.rs:36-46,116-145`,
`src/ip/builder.rs:52-57`). -/
def ethernetProgram (cfg : Cfg) (b : B) (eops : List EtherOp) (vops : List V4Op) (inner : Inner) :
    Outcome Bytes := do
  let e ← EtherBuilder.«with» cfg b
  let e ← runOps (EtherOp.run cfg) eops e
  let i ← EtherBuilder.ip e
  let v ← IpBuilder.v4 cfg i
  let v ← runOps (V4Op.run cfg) vops v
  inner.build cfg v

/-- `icmp::Builder::with(b)?` followed by `inner` (`src/icmp/builder.rs:32-37`). -/
def icmpProgram (cfg : Cfg) (b : B) (inner : IcmpInner) : Outcome Bytes := do
  let i ← IcmpBuilder.«with» b
  inner.build cfg i

/-- `udp::Builder::with(b)?.ops…?.build()`: a UDP builder that is not inside an IP packet
(`src/udp/builder.rs:37-63`). -/
def udpProgram (cfg : Cfg) (b : B) (ops : List UdpOp) : Outcome Bytes := do
  let u ← UdpBuilder.«with» cfg b
  let u ← runOps (UdpOp.run cfg) ops u
  UdpBuilder.build cfg u

/-- `tcp::Builder::with(b)?.ops…?.build()`: a TCP builder that is not inside an IP packet
(`src/tcp/builder.rs:40-74`). -/
def tcpProgram (cfg : Cfg) (b : B) (ops : List TcpOp) : Outcome Bytes := do
  let t ← TcpBuilder.«with» cfg b
  let t ← runOps (TcpOp.run cfg) ops t
  TcpBuilder.build cfg t

end Verif

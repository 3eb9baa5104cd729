import Verif.Model.Kinds

/-!
# The `fmt::Debug` implementations

`f.debug_struct(name).field(label, &value)…finish()`: the values are computed in the order of the calls; a
panic of an accessor is a panic of the formatting.  What is modelled is the structure that is printed, a
name and a list of labels with values, not its rendering as text (which is the standard library's).
-/

namespace Verif

/-- The values that appear in the output (the types of the fields in the `Debug` implementations, for instance
`src/ether/packet.rs:42-51`). -/
inductive Shown where
  | bool (v : Bool)
  | u8 (v : U8)
  | u16 (v : U16)
  | u32 (v : U32)
  | bytes (v : Bytes)
  | hwAddr (v : HwAddr)
  | ipv4Addr (v : Ipv4Addr)
  | etherProtocol (v : EtherProtocol)
  | ipProtocol (v : IpProtocol)
  | v4Flags (v : V4Flags)
  | tcpFlags (v : TcpFlags)
  | icmpKind (v : IcmpKind)
  | v4Class (v : V4OptClass)
  | v4Number (v : V4OptNumber)
  | tcpNumber (v : TcpOptNumber)
  deriving DecidableEq

/-- What is printed: a name and labelled values (`debug_struct(name)` at `src/ether/packet.rs:44` and in the other
packet types). -/
structure Debug where
  name : String
  fields : List (String × Shown)
  deriving DecidableEq

/-- What is printed for a message that quotes a packet: the quoted packet or the error is a value too
(`src/icmp/previous/packet.rs:48-54`, `src/icmp/parameter_problem/packet.rs:48-55`,
`src/icmp/redirect_message/packet.rs:49-56`). -/
structure QuotedDebug where
  name : String
  fields : List (String × Shown)
  packet : Except Error Debug

/-- `.field(label, &value)` in a row (for instance `src/ether/packet.rs:45-48`). -/
def debugFields : List (String × Outcome Shown) → Outcome (List (String × Shown))
  | [] => .ok []
  | (l, v) :: r => do
    let x ← v
    let xs ← debugFields r
    .ok ((l, x) :: xs)

/-- `Debug` of one accessor's value (for instance `src/ether/packet.rs:45`). -/
def shown {α : Type} (f : α → Shown) (x : Outcome α) : Outcome Shown := do
  let v ← x
  .ok (f v)

/-- `src/ether/packet.rs:42-51`: the labels `destination` and `source` are swapped. -/
def Ether.debug (b : Bytes) : Outcome Debug := do
  let fs ← debugFields [
    ("destination", shown .hwAddr (Ether.source b)),
    ("source", shown .hwAddr (Ether.destination b)),
    ("protocol", shown .etherProtocol (Ether.protocol b)),
    ("payload", shown .bytes (Ether.payload b))]
  .ok ⟨"ether::Packet", fs⟩

/-- `src/ip/v4/packet.rs:46-65`. -/
def V4.debug (cfg : Cfg) (b : Bytes) : Outcome Debug := do
  let valid ← V4.isValid cfg b
  let fs ← debugFields [
    ("version", shown .u8 (V4.version b)),
    ("header", shown .u8 (V4.ihl b)),
    ("dscp", shown .u8 (V4.dscp b)),
    ("ecn", shown .u8 (V4.ecn b)),
    ("length", shown .u16 (V4.length b)),
    ("id", shown .u16 (V4.id b)),
    ("flags", shown .v4Flags (V4.flags b)),
    ("offset", shown .u16 (V4.offset b)),
    ("ttl", shown .u8 (V4.ttl b)),
    ("protocol", shown .ipProtocol (V4.protocol b)),
    ("checksum", shown .u16 (V4.checksum b)),
    ("source", shown .ipv4Addr (V4.source b)),
    ("destination", shown .ipv4Addr (V4.destination b)),
    ("payload", shown .bytes (V4.payload b))]
  .ok ⟨if valid then "ip::v4::Packet" else "ip::v4::Packet!", fs⟩

/-- `src/ip/v6/packet.rs:38-43`. -/
def V6.debug (_ : Bytes) : Outcome Debug := .ok ⟨"ip::v6::Packet", []⟩

/-- `src/ip/v4/option.rs:136-146`. -/
def V4Opt.debug (b : Bytes) : Outcome Debug := do
  let fs ← debugFields [
    ("is_copied", shown .bool (V4Opt.isCopied b)),
    ("class", shown .v4Class (V4Opt.class_ b)),
    ("number", shown .v4Number (V4Opt.number b)),
    ("length", shown .u8 (Opt.length v4OptKind b)),
    ("payload", shown .bytes (Opt.payload v4OptKind b))]
  .ok ⟨"ip::v4::Option", fs⟩

/-- `src/udp/packet.rs:42-52`: the length is shown under the label `checksum`. -/
def Udp.debug (b : Bytes) : Outcome Debug := do
  let fs ← debugFields [
    ("source", shown .u16 (Udp.source b)),
    ("destination", shown .u16 (Udp.destination b)),
    ("checksum", shown .u16 (Udp.length b)),
    ("checksum", shown .u16 (Udp.checksum b)),
    ("payload", shown .bytes (Udp.payload b))]
  .ok ⟨"udp::Packet", fs⟩

/-- `src/tcp/packet.rs:44-59`. -/
def Tcp.debug (b : Bytes) : Outcome Debug := do
  let fs ← debugFields [
    ("source", shown .u16 (Tcp.source b)),
    ("destination", shown .u16 (Tcp.destination b)),
    ("sequence", shown .u32 (Tcp.sequence b)),
    ("acknowledgment", shown .u32 (Tcp.acknowledgment b)),
    ("offset", shown .u8 (Tcp.offset b)),
    ("flags", shown .tcpFlags (Tcp.flags b)),
    ("window", shown .u16 (Tcp.window b)),
    ("checksum", shown .u16 (Tcp.checksum b)),
    ("pointer", shown .u16 (Tcp.pointer b)),
    ("payload", shown .bytes (Tcp.payload b))]
  .ok ⟨"tcp::Packet", fs⟩

/-- `src/tcp/option.rs:73-81`. -/
def TcpOpt.debug (b : Bytes) : Outcome Debug := do
  let fs ← debugFields [
    ("number", shown .tcpNumber (TcpOpt.number b)),
    ("length", shown .u8 (Opt.length tcpOptKind b)),
    ("payload", shown .bytes (Opt.payload tcpOptKind b))]
  .ok ⟨"tcp::Option", fs⟩

/-- `src/icmp/packet.rs:41-50`. -/
def Icmp.debug (cfg : Cfg) (b : Bytes) : Outcome Debug := do
  let valid ← Icmp.isValid cfg b
  let fs ← debugFields [
    ("kind", shown .icmpKind (Icmp.kind b)),
    ("code", shown .u8 (Icmp.code b)),
    ("checksum", shown .u16 (Icmp.checksum b)),
    ("payload", shown .bytes (Icmp.payload b))]
  .ok ⟨if valid then "icmp::Packet" else "icmp::Packet!", fs⟩

/-- `src/icmp/echo/packet.rs:41-50`. -/
def Echo.debug (b : Bytes) : Outcome Debug := do
  let fs ← debugFields [
    ("request", shown .bool (Echo.isRequest b)),
    ("identifier", shown .u16 (Echo.identifier b)),
    ("sequence", shown .u16 (Echo.sequence b)),
    ("payload", shown .bytes (Echo.payload b))]
  .ok ⟨"icmp::echo::Packet", fs⟩

/-- `src/icmp/timestamp/packet.rs:42-53`: the three timestamps are all shown as the payload. -/
def Timestamp.debug (b : Bytes) : Outcome Debug := do
  let fs ← debugFields [
    ("request", shown .bool (Timestamp.isRequest b)),
    ("identifier", shown .u16 (Timestamp.identifier b)),
    ("sequence", shown .u16 (Timestamp.sequence b)),
    ("originate", shown .bytes (Timestamp.payload b)),
    ("receive", shown .bytes (Timestamp.payload b)),
    ("transmit", shown .bytes (Timestamp.payload b))]
  .ok ⟨"icmp::timestamp::Packet", fs⟩

/-- `src/icmp/information/packet.rs:42-50`. -/
def Information.debug (b : Bytes) : Outcome Debug := do
  let fs ← debugFields [
    ("request", shown .bool (Information.isRequest b)),
    ("identifier", shown .u16 (Information.identifier b)),
    ("sequence", shown .u16 (Information.sequence b))]
  .ok ⟨"icmp::information::Packet", fs⟩

/-- `.field("packet", &self.packet())`: the `Result` is shown with the packet in it
(`src/icmp/previous/packet.rs:51`, `src/icmp/parameter_problem/packet.rs:52`,
`src/icmp/redirect_message/packet.rs:53`). -/
def debugPacket (cfg : Cfg) (p : Outcome Bytes) : Outcome (Except Error Debug) :=
  match p with
  | .ok b => do
    let d ← V4.debug cfg b
    .ok (.ok d)
  | .err e => .ok (.error e)
  | .panic => .panic

/-- `src/icmp/previous/packet.rs:48-54`. -/
def Previous.debug (cfg : Cfg) (b : Bytes) : Outcome QuotedDebug := do
  let p ← debugPacket cfg (Previous.packet b)
  .ok ⟨"icmp::previous::Packet", [], p⟩

/-- `src/icmp/redirect_message/packet.rs:49-56`. -/
def Redirect.debug (cfg : Cfg) (b : Bytes) : Outcome QuotedDebug := do
  let fs ← debugFields [("gateway", shown .ipv4Addr (Redirect.gateway b))]
  let p ← debugPacket cfg (Redirect.packet b)
  .ok ⟨"icmp::redirect_message::Packet", fs, p⟩

/-- `src/icmp/parameter_problem/packet.rs:48-55`. -/
def ParamProblem.debug (cfg : Cfg) (b : Bytes) : Outcome QuotedDebug := do
  let fs ← debugFields [("pointer", shown .u8 (ParamProblem.pointer b))]
  let p ← debugPacket cfg (ParamProblem.packet b)
  .ok ⟨"icmp::parameter_problem::Packet", fs, p⟩

end Verif

import Verif.Model.Programs
import Verif.Model.Ip

/-!
# `Default` of the builders, the remaining functions of `Finalization` and the conversions into `ip::Packet`
-/

namespace Verif

/-! ## `Builder::with(buffer::Dynamic::default()).unwrap()` -/

/-- `src/ether/builder.rs:59-63`. -/
def EtherBuilder.default (cfg : Cfg) : Outcome (EtherBuilder Dynamic) := (EtherBuilder.«with» cfg Dynamic.new).unwrap
/-- `src/ip/builder.rs:44-48`. -/
def IpBuilder.default : Outcome (IpBuilder Dynamic) := (IpBuilder.«with» Dynamic.new).unwrap
/-- `src/ip/v4/builder.rs:73-77`. -/
def V4Builder.default (cfg : Cfg) : Outcome (V4Builder Dynamic) := (V4Builder.«with» cfg Dynamic.new).unwrap
/-- `src/ip/v6/builder.rs:45-49`. -/
def V6Builder.default : Outcome (V6Builder Dynamic) := (V6Builder.«with» Dynamic.new).unwrap
/-- `src/udp/builder.rs:65-69`. -/
def UdpBuilder.default (cfg : Cfg) : Outcome (UdpBuilder Dynamic) := (UdpBuilder.«with» cfg Dynamic.new).unwrap
/-- `src/tcp/builder.rs:76-80`. -/
def TcpBuilder.default (cfg : Cfg) : Outcome (TcpBuilder Dynamic) := (TcpBuilder.«with» cfg Dynamic.new).unwrap
/-- `src/icmp/builder.rs:48-52`. -/
def IcmpBuilder.default : Outcome (IcmpBuilder Dynamic) := (IcmpBuilder.«with» Dynamic.new).unwrap
/-- `src/icmp/echo/builder.rs:66-70`. -/
def EchoBuilder.default (cfg : Cfg) : Outcome (EchoBuilder Dynamic) := (EchoBuilder.«with» cfg Dynamic.new).unwrap
/-- `src/icmp/timestamp/builder.rs:64-68`. -/
def TimestampBuilder.default (cfg : Cfg) : Outcome (TimestampBuilder Dynamic) :=
  (TimestampBuilder.«with» cfg Dynamic.new).unwrap
/-- `src/icmp/information/builder.rs:63-67`. -/
def InformationBuilder.default (cfg : Cfg) : Outcome (InformationBuilder Dynamic) :=
  (InformationBuilder.«with» cfg Dynamic.new).unwrap

/-! ## `Finalization` -/

namespace Finalization

/-- `src/builder.rs:38-42`. -/
def default : Finalization := []
/-- `src/builder.rs:73-80`, `IntoIterator`: the finalizers in the order they were added. -/
def intoIter (fs : Finalization) : List Finalizer := fs
/-- `src/builder.rs:82-86`, `Into<Vec<_>>`. -/
def intoVec (fs : Finalization) : List Finalizer := fs
/-- The number `src/builder.rs:44-50` prints as `length`. -/
def debugLength (fs : Finalization) : Nat := fs.length

end Finalization

/-! ## `ip::Packet::from` -/

/-- `src/ip/packet.rs:78-82` and, for a reference to a packet, `90-94`. -/
def IpPacket.ofV4 (p : Bytes) : IpPacket := .v4 p
/-- `src/ip/packet.rs:84-88` and, for a reference to a packet, `96-100`. -/
def IpPacket.ofV6 (p : Bytes) : IpPacket := .v6 p

end Verif

import Verif.Model.Programs
import Verif.Spec.Wire

/-!
# Specification vocabulary: histories of builder calls

What a history of calls asks for: for each field the last value given (`Spec.last`), and the payloads given.
The selectors only look at the calls; nothing here refers to what the builders do.
-/

namespace Verif

/-! ## Ethernet -/

def EtherOp.destination? : EtherOp → Option HwAddr
  | .destination v => some v
  | _ => none
def EtherOp.source? : EtherOp → Option HwAddr
  | .source v => some v
  | _ => none
def EtherOp.protocol? : EtherOp → Option EtherProtocol
  | .protocol v => some v
  | _ => none
def EtherOp.payload? : EtherOp → Option Bytes
  | .payload v => some v
  | _ => none

/-! ## IPv4 -/

def V4Op.dscp? : V4Op → Option U8
  | .dscp v => some v
  | _ => none
def V4Op.ecn? : V4Op → Option U8
  | .ecn v => some v
  | _ => none
def V4Op.id? : V4Op → Option U16
  | .id v => some v
  | _ => none
def V4Op.ttl? : V4Op → Option U8
  | .ttl v => some v
  | _ => none
def V4Op.source? : V4Op → Option Ipv4Addr
  | .source v => some v
  | _ => none
def V4Op.destination? : V4Op → Option Ipv4Addr
  | .destination v => some v
  | _ => none
def V4Op.protocol? : V4Op → Option IpProtocol
  | .protocol v => some v
  | _ => none
def V4Op.payload? : V4Op → Option Bytes
  | .payload v => some v
  | _ => none

/-- The values fit their fields: DSCP has six bits, ECN two. -/
def V4Op.InRange : V4Op → Prop
  | .dscp v => v.toNat ≤ 63
  | .ecn v => v.toNat ≤ 3
  | _ => True

/-- Not one of the three setters that C16 shows to disturb their neighbours. -/
def V4Op.Tame : V4Op → Prop
  | .ecn _ => False
  | .flags _ => False
  | .offset _ => False
  | _ => True

/-! ## UDP -/

def UdpOp.source? : UdpOp → Option U16
  | .source v => some v
  | _ => none
def UdpOp.destination? : UdpOp → Option U16
  | .destination v => some v
  | _ => none
def UdpOp.payload? : UdpOp → Option Bytes
  | .payload v => some v
  | _ => none

/-! ## TCP -/

def TcpOp.source? : TcpOp → Option U16
  | .source v => some v
  | _ => none
def TcpOp.destination? : TcpOp → Option U16
  | .destination v => some v
  | _ => none
def TcpOp.sequence? : TcpOp → Option U32
  | .sequence v => some v
  | _ => none
def TcpOp.acknowledgment? : TcpOp → Option U32
  | .acknowledgment v => some v
  | _ => none
def TcpOp.flags? : TcpOp → Option TcpFlags
  | .flags v => some v
  | _ => none
def TcpOp.window? : TcpOp → Option U16
  | .window v => some v
  | _ => none
def TcpOp.pointer? : TcpOp → Option U16
  | .pointer v => some v
  | _ => none
def TcpOp.payload? : TcpOp → Option Bytes
  | .payload v => some v
  | _ => none

/-- `flags()` is called at most once and no other header setter comes after it. -/
def TcpOp.FlagsLast : List TcpOp → Prop
  | [] => True
  | .flags _ :: ops => ∀ op ∈ ops, ∃ v, op = .payload v
  | _ :: ops => TcpOp.FlagsLast ops

/-! ## ICMP -/

def EchoOp.kind? : EchoOp → Option IcmpKind
  | .request => some .echoRequest
  | .reply => some .echoReply
  | _ => none
def EchoOp.identifier? : EchoOp → Option U16
  | .identifier v => some v
  | _ => none
def EchoOp.sequence? : EchoOp → Option U16
  | .sequence v => some v
  | _ => none
def EchoOp.payload? : EchoOp → Option Bytes
  | .payload v => some v
  | _ => none

def TimestampOp.kind? : TimestampOp → Option IcmpKind
  | .request => some .timestampRequest
  | .reply => some .timestampReply
  | _ => none
def TimestampOp.identifier? : TimestampOp → Option U16
  | .identifier v => some v
  | _ => none
def TimestampOp.sequence? : TimestampOp → Option U16
  | .sequence v => some v
  | _ => none
def TimestampOp.originate? : TimestampOp → Option U32
  | .originate v => some v
  | _ => none
def TimestampOp.receive? : TimestampOp → Option U32
  | .receive v => some v
  | _ => none
def TimestampOp.transmit? : TimestampOp → Option U32
  | .transmit v => some v
  | _ => none

def InformationOp.kind? : InformationOp → Option IcmpKind
  | .request => some .informationRequest
  | .reply => some .informationReply
  | _ => none
def InformationOp.identifier? : InformationOp → Option U16
  | .identifier v => some v
  | _ => none
def InformationOp.sequence? : InformationOp → Option U16
  | .sequence v => some v
  | _ => none

/-! ## Whole programs -/

/-- The payloads a program hands to the builders behind IPv4. -/
def Inner.payloads : Inner → List Bytes
  | .udp ops => ops.filterMap UdpOp.payload?
  | .tcp ops => ops.filterMap TcpOp.payload?
  | .icmp (.echo ops) => ops.filterMap EchoOp.payload?
  | _ => []

/-- No payload in the program is longer than a quarter of the address space (2^62 bytes, or 2^30 on a 32-bit target).  A
growable buffer cannot hold more than half of it, so nothing much longer can be built at all. -/
def Inner.Sane (cfg : Cfg) (inner : Inner) : Prop := ∀ v ∈ inner.payloads, v.length ≤ cfg.usizeMod / 4
def V4Op.Sane (cfg : Cfg) (op : V4Op) : Prop := ∀ v, op.payload? = some v → v.length ≤ cfg.usizeMod / 4
def EtherOp.Sane (cfg : Cfg) (op : EtherOp) : Prop := ∀ v, op.payload? = some v → v.length ≤ cfg.usizeMod / 4

end Verif

import Verif.Spec.History
import Verif.Spec.Bits
import Verif.Spec.Wire
import Verif.Spec.Checksum

/-!
# What is wrong with a history of builder calls

A history is a list of calls.  `firstFault` finds the first call that something is wrong with, knowing only the
calls before it; nothing here refers to what the builders do.
-/

namespace Verif.Spec
open Verif

/-- What the program gets: an error, or a panic. -/
inductive Fault where
  | error (e : Error)
  | panics

/-- The result of a program with that fault. -/
def Fault.result {α : Type} : Fault → Outcome α
  | .error e => .err e
  | .panics => .panic

/-- The fault of the first faulty call of `ops`; `bad before op` is the fault of `op` after the calls `before`. -/
def firstFault {Op : Type} (bad : List Op → Op → Option Fault) : List Op → List Op → Option Fault
  | _, [] => none
  | before, op :: ops =>
    match bad before op with
    | some f => some f
    | none => firstFault bad (before ++ [op]) ops

/-- Ethernet: a second payload. -/
def etherFault (before : List EtherOp) : EtherOp → Option Fault
  | .payload _ => if (before.filterMap EtherOp.payload?).isEmpty then none else some (.error .alreadyDefined)
  | _ => none

/-- IPv4: a second payload, a DSCP above 63, an ECN above 3. -/
def v4Fault (before : List V4Op) : V4Op → Option Fault
  | .payload _ => if (before.filterMap V4Op.payload?).isEmpty then none else some (.error .alreadyDefined)
  | .dscp v => if v.toNat ≤ 63 then none else some (.error .invalidValue)
  | .ecn v => if v.toNat ≤ 3 then none else some (.error .invalidValue)
  | _ => none

/-- UDP: a second payload. -/
def udpFault (before : List UdpOp) : UdpOp → Option Fault
  | .payload _ => if (before.filterMap UdpOp.payload?).isEmpty then none else some (.error .alreadyDefined)
  | _ => none

/-- TCP: a second payload; after `flags()` every setter of the header (C47), where `source()` reports an I/O
error and the others panic. -/
def tcpFault (before : List TcpOp) : TcpOp → Option Fault
  | .payload _ => if (before.filterMap TcpOp.payload?).isEmpty then none else some (.error .alreadyDefined)
  | .source _ => if (before.filterMap TcpOp.flags?).isEmpty then none else some (.error .io)
  | _ => if (before.filterMap TcpOp.flags?).isEmpty then none else some .panics

/-- ICMP echo: a second payload. -/
def echoFault (before : List EchoOp) : EchoOp → Option Fault
  | .payload _ => if (before.filterMap EchoOp.payload?).isEmpty then none else some (.error .invalidPacket)
  | _ => none

/-- An ICMP builder that was never told a kind. -/
def kindFault (kinds : List IcmpKind) : Option Fault := if kinds.isEmpty then some (.error .invalidPacket) else none

/-- A whole ICMP program: the calls, then `build()`. -/
def icmpFault : IcmpInner → Option Fault
  | .none => some (.error .invalidPacket)
  | .echo ops => (firstFault echoFault [] ops).or (kindFault (ops.filterMap EchoOp.kind?))
  | .timestamp ops => kindFault (ops.filterMap TimestampOp.kind?)
  | .information ops => kindFault (ops.filterMap InformationOp.kind?)

/-- The sum of the 16-bit words of pseudo header, header and payload of the TCP segment that the calls ask for. -/
def tcpWordSum (vops : List V4Op) (ops : List TcpOp) : Nat :=
  (words (pseudoHeader (last V4Op.source? ⟨0, 0, 0, 0⟩ vops).octets (last V4Op.destination? ⟨0, 0, 0, 0⟩ vops).octets 6
      (20 + (last TcpOp.payload? [] ops).length) ++
    (tcpHeader ⟨last TcpOp.source? 0 ops, last TcpOp.destination? 0 ops, last TcpOp.sequence? 0 ops,
        last TcpOp.acknowledgment? 0 ops, last TcpOp.window? 0 ops, last TcpOp.pointer? 0 ops⟩
      (0x5000 ||| (last TcpOp.flags? .empty ops).bits) 0 ++ last TcpOp.payload? [] ops))).sum

/-- `build()` of a TCP segment panics for a payload of odd length if `std` moves the cursor in a failed
`read_exact` (C60), and with overflow checks if the words to be summed up do not fit into 32 bits (C91). -/
def tcpBuildFault (cfg : Cfg) (vops : List V4Op) (ops : List TcpOp) : Option Fault :=
  if (cfg.eofAdvances = true ∧ (last TcpOp.payload? [] ops).length % 2 = 1) ∨
      (cfg.overflowChecks = true ∧ 2 ^ 32 ≤ tcpWordSum vops ops) then some .panics else none

/-- A whole IPv4 program: the IPv4 calls, entering the inner protocol (not after a payload), its calls, `build()`. -/
def ipv4Fault (cfg : Cfg) (vops : List V4Op) (inner : Inner) : Option Fault :=
  (firstFault v4Fault [] vops).or <|
  match inner with
  | .plain => none
  | inner =>
    if (vops.filterMap V4Op.payload?).isEmpty then
      match inner with
      | .plain => none
      | .udp ops => firstFault udpFault [] ops
      | .tcp ops => (firstFault tcpFault [] ops).or (tcpBuildFault cfg vops ops)
      | .icmp i => icmpFault i
    else some (.error .alreadyDefined)

/-- `build()` of a frame around an IPv4 packet with a raw payload panics if the first nibble of the packet is
neither 4 nor 6.  That nibble is 4 or-ed with bits 4 to 7 of the number of words of the packet (C44). -/
def rawFault (vops : List V4Op) : Inner → Option Fault
  | .plain =>
    if (20 + (last V4Op.payload? [] vops).length) / 4 % 256 / 16 ∈ [0, 2, 4, 6] then none else some .panics
  | _ => none

/-- A whole Ethernet program around it. -/
def ethernetFault (cfg : Cfg) (eops : List EtherOp) (vops : List V4Op) (inner : Inner) : Option Fault :=
  (firstFault etherFault [] eops).or <|
  if (eops.filterMap EtherOp.payload?).isEmpty then (ipv4Fault cfg vops inner).or (rawFault vops inner)
  else some (.error .alreadyDefined)

end Verif.Spec

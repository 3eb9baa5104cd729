import Verif.Spec.Faults

/-!
# What is wrong with a history of builder calls on fixed storage

Like `Spec/Faults`, but the storage has `cap` bytes, and every call that begins a header is faulty if the storage
cannot hold it.  The histories have no payload.
-/

namespace Verif.Spec
open Verif

/-- The header that begins needs the first `n` bytes of the storage. -/
def roomFault (cap n : Nat) : Option Fault := if n ≤ cap then none else some (.error .smallBuffer)

/-- An ICMP program behind `n` bytes: `icmp()` itself needs no room, `echo()`, `timestamp()` and `information()` do. -/
def icmpFaultIn (cap n : Nat) : IcmpInner → Option Fault
  | .none => icmpFault .none
  | .echo ops => (roomFault cap (n + 8)).or (icmpFault (.echo ops))
  | .timestamp ops => (roomFault cap (n + 20)).or (icmpFault (.timestamp ops))
  | .information ops => (roomFault cap (n + 8)).or (icmpFault (.information ops))

/-- An IPv4 program behind `n` bytes: the IPv4 header, its calls, the inner header, its calls. -/
def ipv4FaultIn (cap n : Nat) (vops : List V4Op) (inner : Inner) : Option Fault :=
  (roomFault cap (n + 20)).or <| (firstFault v4Fault [] vops).or <|
  match inner with
  | .plain => none
  | .udp ops => (roomFault cap (n + 20 + 8)).or (firstFault udpFault [] ops)
  | .tcp ops => (roomFault cap (n + 20 + 20)).or (firstFault tcpFault [] ops)
  | .icmp i => icmpFaultIn cap (n + 20) i

/-- An Ethernet program around it. -/
def ethernetFaultIn (cap : Nat) (vops : List V4Op) (inner : Inner) : Option Fault :=
  (roomFault cap 14).or (ipv4FaultIn cap 14 vops inner)

end Verif.Spec

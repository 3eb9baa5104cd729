import Verif.Spec.Layers
import Verif.Spec.History

/-!
# What a buffer type of the user's own has to do, and what a program is

`trait Buffer` is public, so the builders may be given any type that implements it.
-/

namespace Verif.Spec
open Verif

/-- How a call that does not succeed ends: with an error, or (`none`) with a panic. -/
def failWith {α : Type} : Option Error → Outcome α
  | some e => .err e
  | none => .panic

/-- A program against the builder API: make a builder on the buffer, call it, build. -/
inductive Program where
  | ether (ops : List EtherOp)
  | ipv4 (vops : List V4Op) (inner : Inner)
  | ethernet (eops : List EtherOp) (vops : List V4Op) (inner : Inner)
  | icmp (inner : IcmpInner)
  | udp (ops : List UdpOp)
  | tcp (ops : List TcpOp)

/-- What the program returns when it is given the buffer `b`. -/
def Program.run {B : Type} [Buffer B] (cfg : Cfg) (b : B) : Program → Outcome Bytes
  | .ether ops => etherProgram cfg b ops
  | .ipv4 vops inner => ipv4Program cfg b vops inner
  | .ethernet eops vops inner => ethernetProgram cfg b eops vops inner
  | .icmp inner => icmpProgram cfg b inner
  | .udp ops => udpProgram cfg b ops
  | .tcp ops => tcpProgram cfg b ops

/-- The program writes the network layer itself: every program but a bare UDP or TCP builder, whose checksum needs the
addresses in the layer below. -/
def Program.SelfContained : Program → Prop
  | .udp _ | .tcp _ => False
  | _ => True

/-- No payload in the program is longer than a quarter of the address space (see `Inner.Sane`). -/
def Program.Sane (cfg : Cfg) : Program → Prop
  | .ether ops => ∀ op ∈ ops, op.Sane cfg
  | .ipv4 vops inner => (∀ op ∈ vops, op.Sane cfg) ∧ inner.Sane cfg
  | .ethernet eops vops inner => (∀ op ∈ eops, op.Sane cfg) ∧ (∀ op ∈ vops, op.Sane cfg) ∧ inner.Sane cfg
  | .icmp inner => (Inner.icmp inner).Sane cfg
  | .udp ops => (Inner.udp ops).Sane cfg
  | .tcp ops => (Inner.tcp ops).Sane cfg

/-- The payloads a program hands to its builders. -/
def Program.payloads : Program → List Bytes
  | .ether ops => ops.filterMap EtherOp.payload?
  | .ipv4 vops inner => vops.filterMap V4Op.payload? ++ inner.payloads
  | .ethernet eops vops inner => eops.filterMap EtherOp.payload? ++ vops.filterMap V4Op.payload? ++ inner.payloads
  | .icmp inner => (Inner.icmp inner).payloads
  | .udp ops => ops.filterMap UdpOp.payload?
  | .tcp ops => ops.filterMap TcpOp.payload?

end Verif.Spec

import Verif.Model.Programs
import Verif.Spec.History
import Verif.Spec.Bits

/-!
# Concrete packets and programs

Inputs for the `example`s that show, beside a theorem, that a concrete case meets its hypotheses.  Two hosts, 10.0.0.1
and 10.0.0.2, exchange packets over Ethernet; every checksum is right.
-/

namespace Verif.Sample
open Verif

/-! ## Packets -/

/-- A UDP datagram from port 53 to port 4000 with four bytes of data. -/
def udp : Bytes := [0, 53, 15, 160, 0, 12, 215, 248, 1, 2, 3, 4]
/-- The IPv4 packet around `udp`. -/
def udpPacket : Bytes := [69, 0, 0, 32, 0, 7, 0, 0, 64, 17, 102, 196, 10, 0, 0, 1, 10, 0, 0, 2] ++ udp
/-- The frame around `udpPacket`. -/
def udpFrame : Bytes := [2, 0, 0, 0, 0, 2, 2, 0, 0, 0, 0, 1, 8, 0] ++ udpPacket

/-- A TCP segment from port 80 to port 4000 with four bytes of data. -/
def tcp : Bytes := [0, 80, 15, 160, 0, 0, 3, 232, 0, 0, 0, 0, 80, 0, 2, 0, 130, 0, 0, 0, 1, 2, 3, 4]
/-- The IPv4 packet around `tcp`. -/
def tcpPacket : Bytes := [69, 0, 0, 44, 0, 7, 0, 0, 64, 6, 102, 195, 10, 0, 0, 1, 10, 0, 0, 2] ++ tcp
/-- The frame around `tcpPacket`. -/
def tcpFrame : Bytes := [2, 0, 0, 0, 0, 2, 2, 0, 0, 0, 0, 1, 8, 0] ++ tcpPacket

/-- An ICMP echo request with four bytes of data. -/
def echo : Bytes := [8, 0, 243, 206, 0, 42, 0, 1, 1, 2, 3, 4]
/-- The IPv4 packet around `echo`. -/
def echoPacket : Bytes := [69, 0, 0, 32, 0, 7, 0, 0, 64, 1, 102, 212, 10, 0, 0, 1, 10, 0, 0, 2] ++ echo

/-- An ICMP timestamp request. -/
def timestamp : Bytes := [13, 0, 108, 51, 0, 42, 0, 1, 0, 1, 134, 160, 0, 0, 0, 0, 0, 0, 0, 0]
/-- The IPv4 packet around `timestamp`. -/
def timestampPacket : Bytes := [69, 0, 0, 40, 0, 7, 0, 0, 64, 1, 102, 204, 10, 0, 0, 1, 10, 0, 0, 2] ++ timestamp
/-- The frame around `timestampPacket`. -/
def timestampFrame : Bytes := [2, 0, 0, 0, 0, 2, 2, 0, 0, 0, 0, 1, 8, 0] ++ timestampPacket

/-- An ICMP information request. -/
def information : Bytes := [15, 0, 240, 212, 0, 42, 0, 1]
/-- The IPv4 packet around `information`. -/
def informationPacket : Bytes := [69, 0, 0, 28, 0, 7, 0, 0, 64, 1, 102, 216, 10, 0, 0, 1, 10, 0, 0, 2] ++ information
/-- The frame around `informationPacket`. -/
def informationFrame : Bytes := [2, 0, 0, 0, 0, 2, 2, 0, 0, 0, 0, 1, 8, 0] ++ informationPacket

/-- "Port unreachable", quoting `udpPacket`. -/
def unreachable : Bytes := [3, 3, 0, 0, 0, 0, 0, 0] ++ udpPacket

/-- `udpPacket` travelling the other way. -/
def udpBack : Bytes := [69, 0, 0, 32, 0, 7, 0, 0, 64, 17, 102, 196, 10, 0, 0, 2, 10, 0, 0, 1] ++ udp

/-- `udp`, `tcp` and `echo` with two words exchanged: the checksums cannot tell. -/
def udpSwapped : Bytes := [0, 53, 15, 160, 0, 12, 215, 248, 3, 4, 1, 2]
def tcpSwapped : Bytes := [0, 80, 15, 160, 0, 0, 3, 232, 0, 0, 0, 0, 80, 0, 2, 0, 130, 0, 0, 0, 3, 4, 1, 2]
def echoSwapped : Bytes := [8, 0, 243, 206, 0, 1, 0, 42, 1, 2, 3, 4]

/-- A header of six words with the options `NoOperation`, `RouterAlert` cut to three bytes; no data. -/
def optionsPacket : Bytes :=
  [70, 0, 0, 24, 0, 7, 0, 0, 64, 17, 0, 0, 10, 0, 0, 1, 10, 0, 0, 2, 1, 148, 3, 0]

/-- A header that says it has two words. -/
def shortPacket : Bytes := [66, 0, 0, 20, 0, 7, 0, 0, 64, 17, 0, 0, 10, 0, 0, 1, 10, 0, 0, 2]
/-- A header that says it has four words; its checksum over them is right. -/
def fourWords : Bytes := [68, 0, 0, 20, 0, 7, 0, 0, 64, 17, 113, 211, 10, 0, 0, 1, 10, 0, 0, 2]

/-! ## Programs -/

/-- `ip::v4` calls: identification, time to live, both addresses. -/
def vops : List V4Op := [.id 7, .ttl 64, .source ⟨10, 0, 0, 1⟩, .destination ⟨10, 0, 0, 2⟩]
/-- `ether` calls: both addresses. -/
def eops : List EtherOp := [.destination ⟨2, 0, 0, 0, 0, 2⟩, .source ⟨2, 0, 0, 0, 0, 1⟩]
/-- `udp` calls that build `udp`; `udpHead` without the payload. -/
def udpHead : List UdpOp := [.source 53, .destination 4000]
def uops : List UdpOp := [.source 53, .destination 4000, .payload [1, 2, 3, 4]]
/-- `tcp` calls that build `tcp`; `tcpHead` without the payload. -/
def tcpHead : List TcpOp := [.source 80, .destination 4000, .sequence 1000, .window 512]
def tops : List TcpOp := [.source 80, .destination 4000, .sequence 1000, .window 512, .payload [1, 2, 3, 4]]
/-- `icmp::echo` calls that build `echo`; `echoHead` without the payload. -/
def echoHead : List EchoOp := [.request, .identifier 42, .sequence 1]
def echoOps : List EchoOp := [.request, .identifier 42, .sequence 1, .payload [1, 2, 3, 4]]
/-- `icmp::timestamp` calls that build `timestamp`. -/
def timestampOps : List TimestampOp := [.request, .identifier 42, .sequence 1, .originate 100000]
/-- `icmp::information` calls that build `information`. -/
def informationOps : List InformationOp := [.request, .identifier 42, .sequence 1]

/-! ## Checking hypotheses -/

/-- The value of an outcome, or the default one. -/
def value {α : Type} [Inhabited α] : Outcome α → α
  | .ok a => a
  | _ => default

/-- Whether an outcome is a success. -/
def isOk {α : Type} : Outcome α → Bool
  | .ok _ => true
  | _ => false

/-- A success is the success of its value. -/
theorem value_of {α : Type} [Inhabited α] {o : Outcome α} (h : isOk o = true) : o = .ok (value o) := by
  cases o <;> first | rfl | cases h

/-- A success has a value. -/
theorem reached {α : Type} {o : Outcome α} (h : isOk o = true) : ∃ a, o = .ok a := by
  cases o <;> first | exact ⟨_, rfl⟩ | cases h

/-- Two steps that succeed together succeed one after the other. -/
theorem reached_both {α β : Type} {o : Outcome α} {f : α → Outcome β} (h : isOk (o >>= f) = true) :
    ∃ a b, o = .ok a ∧ f a = .ok b := by
  cases o with
  | ok a => obtain ⟨b, hb⟩ := reached h; exact ⟨a, b, rfl, hb⟩
  | err e => cases h
  | panic => cases h

/-- A statement about the pairs of a list, pair by pair. -/
theorem pairs {p : Nat → Nat → Prop} {l : List (Nat × Nat)} (h : ∀ x ∈ l, p x.1 x.2) : ∀ s w, (s, w) ∈ l → p s w :=
  fun _ _ hm => h _ hm

/-- Messages of one length agree on the bits outside a range if those of their bits do that they have. -/
theorem outside {b b' : Bytes} {s w : Nat} (hl : b'.length = b.length)
    (h : ∀ i, i < 8 * b.length → i < s ∨ s + w ≤ i → Spec.bitAt b' i = Spec.bitAt b i) :
    ∀ i, i < s ∨ s + w ≤ i → Spec.bitAt b' i = Spec.bitAt b i := by
  intro i hi
  by_cases hb : i < 8 * b.length
  · exact h i hb hi
  · unfold Spec.bitAt
    simp only [List.getD_eq_getElem?_getD]
    rw [List.getElem?_eq_none (by omega), List.getElem?_eq_none (by omega)]

/-- Decides a hypothesis about concrete inputs by evaluation, in each of the eight build configurations. -/
macro "in_every_build" : tactic =>
  `(tactic| (rename Cfg => c; rcases c with ⟨_ | _, _ | _, _ | _⟩ <;> decide +kernel))

/-- Unfolds the calls of the samples and what is said about them. -/
macro "sample_calls" : tactic =>
  `(tactic| (simp [vops, eops, udpHead, uops, tcpHead, tops, echoHead, echoOps, timestampOps, informationOps,
    EtherOp.Sane, V4Op.Sane, V4Op.InRange, Inner.Sane, Inner.payloads, TcpOp.FlagsLast, EtherOp.payload?, V4Op.payload?,
    UdpOp.payload?, TcpOp.payload?, TcpOp.flags?, EchoOp.payload?, EchoOp.kind?, TimestampOp.kind?, InformationOp.kind?,
    Spec.last, Cfg.isizeMax, Cfg.usizeMod, zeros]; done))

/-- Decides a hypothesis about concrete calls by looking at each of them. -/
macro "call_by_call" : tactic =>
  `(tactic| first | sample_calls | decide +kernel | (rename Cfg => c; rcases c with ⟨_ | _, _ | _, _ | _⟩ <;> sample_calls) | in_every_build)

/-- Decides a hypothesis about each element of a concrete list. -/
macro "one_by_one" : tactic =>
  `(tactic| (intro op h; simp only [List.mem_cons, List.not_mem_nil, or_false] at h; rcases h with rfl | rfl <;> decide))

end Verif.Sample

import Verif.Model.Ether
import Verif.Model.Ip
import Verif.Model.Udp
import Verif.Model.Tcp
import Verif.Model.Icmp
import Verif.Model.Options

/-!
# The traits every packet implements

`src/packet.rs:16-30` (`Packet`: `header`, `payload`, `split`), `src/size.rs:16-91` (`Min`, `Max` and `Size`
of header and payload) and `AsRef<[u8]>`, collected in one record per packet type.  `split_mut` has in every
packet type the same body as `split`, and `as_mut` the same as `as_ref`, up to `&mut`.
-/

namespace Verif

/-- What a packet type offers through the crate's traits (`src/packet.rs:16-49`, `src/size.rs:16-91`). -/
structure Kind where
  /-- `Packet::new`. -/
  new : Bytes → Outcome Bytes
  /-- `Packet::split`, `src/packet.rs:30`; `PacketMut::split_mut`, `src/packet.rs:46`. -/
  split : Bytes → Outcome (Bytes × Bytes)
  /-- `AsRef::as_ref`, `AsMut::as_mut`. -/
  asRef : Cfg → Bytes → Outcome Bytes
  /-- `size::header::Min::min`, `src/size.rs:17-20`. -/
  headerMin : Nat
  /-- `size::header::Max::max`, `src/size.rs:23-26`. -/
  headerMax : Nat
  /-- `size::header::Size::size`, `src/size.rs:29-32`. -/
  headerSize : Bytes → Outcome Nat
  /-- `size::payload::Min::min`, `src/size.rs:38-41`. -/
  payloadMin : Nat
  /-- `size::payload::Max::max`, `src/size.rs:44-47`; `none` where it is not implemented. -/
  payloadMax : Option Nat
  /-- `size::payload::Size::size`, `src/size.rs:50-53`. -/
  payloadSize : Cfg → Bytes → Outcome Nat
  /-- Where in the buffer the second part of `split_mut` starts. -/
  payloadAt : Bytes → Outcome Nat

namespace Kind

/-- `src/packet.rs:20-22`, the provided `header`. -/
def header (k : Kind) (b : Bytes) : Outcome Bytes := do
  let s ← k.split b
  .ok s.1

/-- `src/packet.rs:25-27`, the provided `payload`. -/
def payload (k : Kind) (b : Bytes) : Outcome Bytes := do
  let s ← k.split b
  .ok s.2

/-- `src/size.rs:75-79`, the blanket `size::Min::min`. -/
def min (k : Kind) : Nat := k.headerMin + k.payloadMin

/-- `src/size.rs:81-85`, the blanket `size::Max::max`; `none` for the types that declare no payload maximum. -/
def max (k : Kind) : Option Nat := k.payloadMax.map (k.headerMax + ·)

/-- `src/size.rs:87-91`, the blanket `size::Size::size`. -/
def size (k : Kind) (cfg : Cfg) (b : Bytes) : Outcome Nat := do
  let h ← k.headerSize b
  let p ← k.payloadSize cfg b
  addUsize cfg h p

/-- `packet.payload_mut().copy_from_slice(v)` (`src/packet.rs:41-43`): panics unless the lengths are
equal, otherwise overwrites that part of the buffer. -/
def writePayload (k : Kind) (v : Bytes) : Mut Bytes Unit := fun b =>
  match k.split b, k.payloadAt b with
  | .ok s, .ok start =>
    if s.2.length = v.length then (.ok (), b.take start ++ v ++ b.drop (start + v.length)) else (.panic, b)
  | _, _ => (.panic, b)

/-- `packet.header_mut().copy_from_slice(v)` (`src/packet.rs:36-38`).  The first part of `split_mut` starts the
buffer in every packet type. -/
def writeHeader (k : Kind) (v : Bytes) : Mut Bytes Unit := fun b =>
  match k.split b with
  | .ok s => if s.1.length = v.length then (.ok (), v ++ b.drop v.length) else (.panic, b)
  | _ => (.panic, b)

/-- `packet.as_mut().copy_from_slice(v)`: `&mut self.buffer.as_mut()[.. size]` starts the buffer, for instance
`src/udp/packet.rs:107-114`. -/
def writeAll (k : Kind) (cfg : Cfg) (v : Bytes) : Mut Bytes Unit := fun b =>
  match k.asRef cfg b with
  | .ok r => if r.length = v.length then (.ok (), v ++ b.drop v.length) else (.panic, b)
  | _ => (.panic, b)

/-- `src/ether/packet.rs:28-40, 60-70, 85-124`. -/
def ether : Kind := ⟨Ether.new, Ether.split, Ether.asRef, Ether.headerMin, Ether.headerMax, Ether.headerSize,
  Ether.payloadMin, some Ether.payloadMax, Ether.payloadSize,
  fun _ => .ok 14⟩
/-- `src/ip/v4/packet.rs:31-46, 67-105, 118-185`. -/
def v4 : Kind := ⟨V4.new, V4.split, fun _ => V4.asRef, V4.headerMin, V4.headerMax, V4.headerSize,
  V4.payloadMin, some V4.payloadMax, fun _ => V4.payloadSize,
  V4.headerSize⟩
/-- `src/ip/v6/packet.rs:24-36, 52-71, 86-120`. -/
def v6 : Kind := ⟨V6.new, V6.split, fun _ => V6.asRef, V6.headerMin, V6.headerMax, V6.headerSize,
  V6.payloadMin, some V6.payloadMax, fun _ => V6.payloadSize,
  fun _ => .ok 0⟩
/-- `src/udp/packet.rs:28-40, 74-82, 99-164`. -/
def udp : Kind := ⟨Udp.new, Udp.split, fun _ => Udp.asRef, Udp.headerMin, Udp.headerMax, Udp.headerSize,
  Udp.payloadMin, some Udp.payloadMax, fun _ => Udp.payloadSize,
  fun _ => .ok 8⟩
/-- `src/tcp/packet.rs:31-42, 67-140`. -/
def tcp : Kind := ⟨Tcp.new, Tcp.split, Tcp.asRef, Tcp.headerMin, Tcp.headerMax, Tcp.headerSize,
  Tcp.payloadMin, some Tcp.payloadMax, Tcp.payloadSize,
  Tcp.headerSize⟩
/-- `src/icmp/packet.rs:28-39, 59-69, 84-123`. -/
def icmp : Kind := ⟨Icmp.new, Icmp.split, Icmp.asRef, Icmp.headerMin, Icmp.headerMax, Icmp.headerSize,
  Icmp.payloadMin, none, Icmp.payloadSize,
  fun _ => .ok 4⟩
/-- `src/icmp/echo/packet.rs:28-39, 60-79, 94-133`. -/
def echo : Kind := ⟨Echo.new, Echo.split, Echo.asRef, Echo.headerMin, Echo.headerMax, Echo.headerSize,
  Echo.payloadMin, none, Echo.payloadSize,
  fun _ => .ok 8⟩
/-- `src/icmp/timestamp/packet.rs:28-40, 63-82, 97-136`. -/
def timestamp : Kind := ⟨Timestamp.new, Timestamp.split, fun _ => Timestamp.asRef, Timestamp.headerMin,
  Timestamp.headerMax, Timestamp.headerSize, Timestamp.payloadMin, some Timestamp.payloadMax,
  fun _ => Timestamp.payloadSize,
  fun _ => .ok 8⟩
/-- `src/icmp/information/packet.rs:28-40, 59-78, 93-132`. -/
def information : Kind := ⟨Information.new, Information.split, fun _ => Information.asRef,
  Information.headerMin, Information.headerMax, Information.headerSize, Information.payloadMin,
  some Information.payloadMax, fun _ => Information.payloadSize,
  fun _ => .ok 8⟩
/-- `src/icmp/previous/packet.rs:28-45, 65-85, 100-141`. -/
def previous : Kind := ⟨Previous.new, Previous.split, Previous.asRef, Previous.headerMin, Previous.headerMax,
  Previous.headerSize, Previous.payloadMin, some Previous.payloadMax, Previous.payloadSize,
  fun _ => .ok 8⟩
/-- `src/icmp/redirect_message/packet.rs:29-46, 65-83, 98-137`. -/
def redirect : Kind := ⟨Redirect.new, Redirect.split, Redirect.asRef, Redirect.headerMin, Redirect.headerMax,
  Redirect.headerSize, Redirect.payloadMin, some Redirect.payloadMax, Redirect.payloadSize,
  fun _ => .ok 8⟩
/-- `src/icmp/parameter_problem/packet.rs:28-45, 65-83, 98-139`. -/
def parameterProblem : Kind := ⟨ParamProblem.new, ParamProblem.split, ParamProblem.asRef,
  ParamProblem.headerMin, ParamProblem.headerMax, ParamProblem.headerSize, ParamProblem.payloadMin,
  some ParamProblem.payloadMax, ParamProblem.payloadSize,
  fun _ => .ok 8⟩
/-- `src/ip/v4/option.rs:25-42, 150-220`, `src/tcp/option.rs:26-43, 85-153`: an option has the traits of a packet. -/
def option (k : OptKind) : Kind := ⟨Opt.new k, Opt.split k, fun cfg => Opt.asRef cfg k, Opt.headerMin, Opt.headerMax,
  Opt.headerSize k, Opt.payloadMin, some Opt.payloadMax, fun cfg => Opt.payloadSize cfg k,
  Opt.headerSize k⟩

end Kind

end Verif

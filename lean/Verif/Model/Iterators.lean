import Verif.Model.Builders

/-!
# `payload` with an iterator of the user's own

`payload` takes any `T: IntoIterator<Item = &u8>`: the iterator is code of the user's, which may go on for ever, panic,
or answer after it has said `None`.  The loop asks it one item at a time.  `setPayload` in `Model/Builders.lean` is the
case of a list; here the iterator is a function from the number of the question to the answer, and the loop is run for a
number of rounds, `none` meaning that it is still running after them.
-/

namespace Verif

/-- What the user's `Iterator::next` does when it is asked: give a byte, say `None`, or panic (the `for` loops of
`src/ether/builder.rs:107` and of the other builders ask it). -/
inductive Item where
  | byte (v : U8)
  | done
  | panics
  deriving DecidableEq

/-- The answers of an iterator to the questions 0, 1, 2, … (the argument `value: T` of `src/ether/builder.rs:100`). -/
abbrev Source := Nat → Item

section
variable {B : Type} [Buffer B]

/-- One turn of the loop: `self.buffer.more(1)?; *self.buffer.data_mut().last_mut().unwrap() = *byte;`
(`src/ether/builder.rs:108-109`, `src/ip/v4/builder.rs:174-175`, `src/udp/builder.rs:105-106`,
`src/tcp/builder.rs:146,148`, `src/icmp/echo/builder.rs:126-127`). -/
def appendOne (cfg : Cfg) (v : U8) : Mut B Unit := do
  Buffer.more cfg 1
  Buffer.modifyData cfg (setLast v)

/-- `for byte in value { … }` (`src/ether/builder.rs:107-110` and the same loop in the other builders), from question
number `i` on, for the given number of rounds.  The result is the number of the questions asked so far and how the loop
ended. -/
def feed (cfg : Cfg) (src : Source) : Nat → Nat → B → Option (Nat × Outcome B)
  | 0, _, _ => none
  | rounds + 1, i, b =>
    match src i with
    | .done => some (i + 1, .ok b)
    | .panics => some (i + 1, .panic)
    | .byte v =>
      match onBuffer (appendOne cfg v) b with
      | .ok b' => feed cfg src rounds (i + 1) b'
      | .err e => some (i + 1, .err e)
      | .panic => some (i + 1, .panic)

/-- `src/ether/builder.rs:100-113`. -/
def EtherBuilder.payloadFrom (cfg : Cfg) (src : Source) (rounds : Nat) (s : EtherBuilder B) :
    Option (Nat × Outcome (EtherBuilder B)) :=
  if s.payload then some (0, .err .alreadyDefined)
  else (feed cfg src rounds 0 s.buffer).map fun (asked, r) =>
    (asked, do let buffer ← r; .ok { s with buffer := buffer, payload := true })

/-- `src/ip/v4/builder.rs:166-179`. -/
def V4Builder.payloadFrom (cfg : Cfg) (src : Source) (rounds : Nat) (s : V4Builder B) :
    Option (Nat × Outcome (V4Builder B)) :=
  if s.payload then some (0, .err .alreadyDefined)
  else (feed cfg src rounds 0 s.buffer).map fun (asked, r) =>
    (asked, do let buffer ← r; .ok { s with buffer := buffer, payload := true })

/-- `src/udp/builder.rs:97-110`. -/
def UdpBuilder.payloadFrom (cfg : Cfg) (src : Source) (rounds : Nat) (s : UdpBuilder B) :
    Option (Nat × Outcome (UdpBuilder B)) :=
  if s.payload then some (0, .err .alreadyDefined)
  else (feed cfg src rounds 0 s.buffer).map fun (asked, r) =>
    (asked, do let buffer ← r; .ok { s with buffer := buffer, payload := true })

/-- `src/tcp/builder.rs:138-152`.  `payload_length` is incremented once for every byte: when the loop has ended well,
every question but the last one was answered with a byte. -/
def TcpBuilder.payloadFrom (cfg : Cfg) (src : Source) (rounds : Nat) (s : TcpBuilder B) :
    Option (Nat × Outcome (TcpBuilder B)) :=
  if s.payload then some (0, .err .alreadyDefined)
  else (feed cfg src rounds 0 s.buffer).map fun (asked, r) =>
    (asked, do
      let buffer ← r
      .ok { s with buffer := buffer, payload := true, payloadLength := s.payloadLength + (asked - 1) })

/-- `src/icmp/echo/builder.rs:118-131`. -/
def EchoBuilder.payloadFrom (cfg : Cfg) (src : Source) (rounds : Nat) (s : EchoBuilder B) :
    Option (Nat × Outcome (EchoBuilder B)) :=
  if s.payload then some (0, .err .invalidPacket)
  else (feed cfg src rounds 0 s.buffer).map fun (asked, r) =>
    (asked, do let buffer ← r; .ok { s with buffer := buffer, payload := true })

end

/-- One of the five builders that have a method `payload` (`src/ether/builder.rs:100`, `src/ip/v4/builder.rs:166`,
`src/udp/builder.rs:97`, `src/tcp/builder.rs:138`, `src/icmp/echo/builder.rs:118`). -/
inductive PayloadBuilder (B : Type) where
  | ether (s : EtherBuilder B)
  | v4 (s : V4Builder B)
  | udp (s : UdpBuilder B)
  | tcp (s : TcpBuilder B)
  | echo (s : EchoBuilder B)

namespace PayloadBuilder
variable {B : Type} [Buffer B]

/-- The buffer inside the builder (`src/ether/builder.rs:29` and the same field of the others). -/
def buffer : PayloadBuilder B → B
  | .ether s => s.buffer
  | .v4 s => s.buffer
  | .udp s => s.buffer
  | .tcp s => s.buffer
  | .echo s => s.buffer

/-- Whether `payload` has been called before (`src/ether/builder.rs:32` and the same field of the others). -/
def hasPayload : PayloadBuilder B → Bool
  | .ether s => s.payload
  | .v4 s => s.payload
  | .udp s => s.payload
  | .tcp s => s.payload
  | .echo s => s.payload

/-- `payload` on a list of bytes, a `Vec<u8>` or a slice: `Model/Builders.lean` (`src/ether/builder.rs:100-113` and
so on). -/
def setPayload (cfg : Cfg) (v : Bytes) : PayloadBuilder B → Outcome (PayloadBuilder B)
  | .ether s => do .ok (.ether (← s.setPayload cfg v))
  | .v4 s => do .ok (.v4 (← s.setPayload cfg v))
  | .udp s => do .ok (.udp (← s.setPayload cfg v))
  | .tcp s => do .ok (.tcp (← s.setPayload cfg v))
  | .echo s => do .ok (.echo (← s.setPayload cfg v))

/-- `payload` on an iterator, after so many rounds (`src/ether/builder.rs:100-113` and so on). -/
def payloadFrom (cfg : Cfg) (src : Source) (rounds : Nat) :
    PayloadBuilder B → Option (Nat × Outcome (PayloadBuilder B))
  | .ether s => (s.payloadFrom cfg src rounds).map fun (asked, r) => (asked, do .ok (.ether (← r)))
  | .v4 s => (s.payloadFrom cfg src rounds).map fun (asked, r) => (asked, do .ok (.v4 (← r)))
  | .udp s => (s.payloadFrom cfg src rounds).map fun (asked, r) => (asked, do .ok (.udp (← r)))
  | .tcp s => (s.payloadFrom cfg src rounds).map fun (asked, r) => (asked, do .ok (.tcp (← r)))
  | .echo s => (s.payloadFrom cfg src rounds).map fun (asked, r) => (asked, do .ok (.echo (← r)))

end PayloadBuilder

end Verif

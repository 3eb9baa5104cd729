import Verif.Model.V4

/-!
# `packet::icmp`
-/

namespace Verif

namespace Icmp

/-- `src/icmp/mod.rs:46-67`. -/
def checksumOf (cfg : Cfg) (b : Bytes) : Outcome U16 := do
  let r ← sumLoop cfg 4 b 0 0xffff#32
  .ok (notU16 r.1)

/-- `src/icmp/packet.rs:29-34`. -/
def headerMin : Nat := 4
/-- `src/icmp/packet.rs:29-34`. -/
def headerMax : Nat := 4
/-- `src/icmp/packet.rs:29-34`. -/
def headerSize (_ : Bytes) : Outcome Nat := .ok 4
/-- `src/icmp/packet.rs:36-39` (no `max`). -/
def payloadMin : Nat := 0
/-- `src/icmp/packet.rs:38`. -/
def payloadSize (cfg : Cfg) (b : Bytes) : Outcome Nat := subUsize cfg b.length 4

/-- `src/size.rs:87-91`. -/
def size (cfg : Cfg) (b : Bytes) : Outcome Nat := do
  let h ← headerSize b
  let p ← payloadSize cfg b
  addUsize cfg h p

/-- `src/icmp/packet.rs:59-69`. -/
def new (b : Bytes) : Outcome Bytes :=
  if b.length < headerMin then .err .smallBuffer else .ok b

/-- `src/icmp/packet.rs:84-90`. -/
def asRef (cfg : Cfg) (b : Bytes) : Outcome Bytes := do
  let n ← size cfg b
  sliceTo b n

/-- `src/icmp/packet.rs:113-123`. -/
def split (b : Bytes) : Outcome (Bytes × Bytes) := splitAt b 4

/-- `src/packet.rs:20-22`. -/
def header (b : Bytes) : Outcome Bytes := do
  let s ← split b
  .ok s.1

/-- `src/packet.rs:25-27`. -/
def payload (b : Bytes) : Outcome Bytes := do
  let s ← split b
  .ok s.2

/-- `src/icmp/packet.rs:141-143`. -/
def kind (b : Bytes) : Outcome IcmpKind := do
  let x ← idx b 0
  .ok (IcmpKind.ofWire x)

/-- `src/icmp/packet.rs:146-148`. -/
def code (b : Bytes) : Outcome U8 := idx b 1

/-- `src/icmp/packet.rs:151-153`. -/
def checksum (b : Bytes) : Outcome U16 := readU16At b 2

/-- `src/icmp/packet.rs:156-158`. -/
def isValid (cfg : Cfg) (b : Bytes) : Outcome Bool := do
  let c ← checksumOf cfg b
  let s ← checksum b
  .ok (c == s)

/-- The acceptance check shared by the six typed views: minimal length, then the kind (for instance
`src/icmp/echo/packet.rs:60-79`). -/
def typedNew (min : Nat) (kinds : List IcmpKind) (b : Bytes) : Outcome Bytes :=
  if b.length < min then .err .smallBuffer
  else do
    let x ← idx b 0
    if IcmpKind.ofWire x ∈ kinds then .ok b else .err .invalidPacket

/-- `src/icmp/packet.rs:188-194`, `Drop for Checked`: `view` is how many bytes the packet's
`as_ref`/`as_mut` cover. -/
def dropChecked (cfg : Cfg) (view : Bytes → Outcome Nat) : Mut Bytes Unit := fun b =>
  match (do let n ← view b; sliceTo b n) with
  | .ok v =>
    match checksumOf cfg v with
    | .ok c => ((writeU16 2 c v).1.unwrap, (writeU16 2 c v).2 ++ b.drop v.length)
    | _ => (.panic, b)
  | _ => (.panic, b)

end Icmp

/-! ## Echo -/

namespace Echo

/-- `src/icmp/echo/packet.rs:29-34`. -/
def headerMin : Nat := 8
/-- `src/icmp/echo/packet.rs:29-34`. -/
def headerMax : Nat := 8
/-- `src/icmp/echo/packet.rs:29-34`. -/
def headerSize (_ : Bytes) : Outcome Nat := .ok 8
/-- `src/icmp/echo/packet.rs:36-39` (no `max`). -/
def payloadMin : Nat := 0
/-- `src/icmp/echo/packet.rs:38`. -/
def payloadSize (cfg : Cfg) (b : Bytes) : Outcome Nat := subUsize cfg b.length 8
/-- `src/size.rs:87-91`. -/
def size (cfg : Cfg) (b : Bytes) : Outcome Nat := do
  let h ← headerSize b
  let p ← payloadSize cfg b
  addUsize cfg h p
/-- `src/icmp/echo/packet.rs:60-79`. -/
def new (b : Bytes) : Outcome Bytes := Icmp.typedNew headerMin [.echoRequest, .echoReply] b
/-- `src/icmp/echo/packet.rs:94-100`. -/
def asRef (cfg : Cfg) (b : Bytes) : Outcome Bytes := do
  let n ← size cfg b
  sliceTo b n
/-- `src/icmp/echo/packet.rs:123-133`. -/
def split (b : Bytes) : Outcome (Bytes × Bytes) := splitAt b 8
/-- `src/packet.rs:20-22`. -/
def header (b : Bytes) : Outcome Bytes := do
  let s ← split b
  .ok s.1
/-- `src/packet.rs:25-27`. -/
def payload (b : Bytes) : Outcome Bytes := do
  let s ← split b
  .ok s.2
/-- `src/icmp/echo/packet.rs:137-139`. -/
def isRequest (b : Bytes) : Outcome Bool := do
  let x ← idx b 0
  .ok (IcmpKind.ofWire x == .echoRequest)
/-- `src/icmp/echo/packet.rs:142-144`. -/
def isReply (b : Bytes) : Outcome Bool := do
  let x ← idx b 0
  .ok (IcmpKind.ofWire x == .echoReply)
/-- `src/icmp/echo/packet.rs:147-149`. -/
def identifier (b : Bytes) : Outcome U16 := readU16At b 4
/-- `src/icmp/echo/packet.rs:152-154`. -/
def sequence (b : Bytes) : Outcome U16 := readU16At b 6
/-- `src/icmp/echo/packet.rs:159-163`. -/
def makeRequest : Mut Bytes Unit := setIdx 0 IcmpKind.echoRequest.toWire
/-- `src/icmp/echo/packet.rs:166-170`. -/
def makeReply : Mut Bytes Unit := setIdx 0 IcmpKind.echoReply.toWire
/-- `src/icmp/echo/packet.rs:173-178`. -/
def setIdentifier (v : U16) : Mut Bytes Unit := writeU16 4 v
/-- `src/icmp/echo/packet.rs:181-186`. -/
def setSequence (v : U16) : Mut Bytes Unit := writeU16 6 v

/-- The setters of `Checked` (`src/icmp/echo/packet.rs:196-220`), as data. -/
inductive Set where
  | request
  | reply
  | identifier (v : U16)
  | sequence (v : U16)

/-- `src/icmp/echo/packet.rs:196-220`. -/
def Set.run : Set → Mut Bytes Unit
  | .request => makeRequest
  | .reply => makeReply
  | .identifier v => setIdentifier v
  | .sequence v => setSequence v

/-- `packet.checked()`, the calls `ops`, then `Drop` (`src/icmp/echo/packet.rs:189-193`,
`src/icmp/packet.rs:188-194`). -/
def checkedRun (cfg : Cfg) (ops : List Set) : Mut Bytes Unit := do
  runIgnoringErrors (ops.map Set.run)
  Icmp.dropChecked cfg (size cfg)

end Echo

/-! ## Timestamp -/

namespace Timestamp

/-- `src/icmp/timestamp/packet.rs:29-34`. -/
def headerMin : Nat := 20
/-- `src/icmp/timestamp/packet.rs:29-34`. -/
def headerMax : Nat := 20
/-- `src/icmp/timestamp/packet.rs:29-34`. -/
def headerSize (_ : Bytes) : Outcome Nat := .ok 20
/-- `src/icmp/timestamp/packet.rs:36-40`. -/
def payloadMin : Nat := 0
/-- `src/icmp/timestamp/packet.rs:36-40`. -/
def payloadMax : Nat := 0
/-- `src/icmp/timestamp/packet.rs:36-40`. -/
def payloadSize (_ : Bytes) : Outcome Nat := .ok 0
/-- `src/size.rs:87-91`. -/
def size (b : Bytes) : Outcome Nat := do
  let h ← headerSize b
  let p ← payloadSize b
  .ok (h + p)
/-- `src/icmp/timestamp/packet.rs:63-82`. -/
def new (b : Bytes) : Outcome Bytes := Icmp.typedNew headerMin [.timestampRequest, .timestampReply] b
/-- `src/icmp/timestamp/packet.rs:97-103`. -/
def asRef (b : Bytes) : Outcome Bytes := do
  let n ← size b
  sliceTo b n
/-- `src/icmp/timestamp/packet.rs:126-136`: splits at 8, not at the header size. -/
def split (b : Bytes) : Outcome (Bytes × Bytes) := splitAt b 8
/-- `src/packet.rs:20-22`. -/
def header (b : Bytes) : Outcome Bytes := do
  let s ← split b
  .ok s.1
/-- `src/packet.rs:25-27`. -/
def payload (b : Bytes) : Outcome Bytes := do
  let s ← split b
  .ok s.2
/-- `src/icmp/timestamp/packet.rs:140-142`. -/
def isRequest (b : Bytes) : Outcome Bool := do
  let x ← idx b 0
  .ok (IcmpKind.ofWire x == .timestampRequest)
/-- `src/icmp/timestamp/packet.rs:145-147`. -/
def isReply (b : Bytes) : Outcome Bool := do
  let x ← idx b 0
  .ok (IcmpKind.ofWire x == .timestampReply)
/-- `src/icmp/timestamp/packet.rs:150-152`. -/
def identifier (b : Bytes) : Outcome U16 := readU16At b 4
/-- `src/icmp/timestamp/packet.rs:155-157`. -/
def sequence (b : Bytes) : Outcome U16 := readU16At b 6
/-- `src/icmp/timestamp/packet.rs:160-162`. -/
def originate (b : Bytes) : Outcome U32 := readU32At b 8
/-- `src/icmp/timestamp/packet.rs:165-167`. -/
def receive (b : Bytes) : Outcome U32 := readU32At b 12
/-- `src/icmp/timestamp/packet.rs:170-172`. -/
def transmit (b : Bytes) : Outcome U32 := readU32At b 16
/-- `src/icmp/timestamp/packet.rs:177-181`: writes the kind of an echo request. -/
def makeRequest : Mut Bytes Unit := setIdx 0 IcmpKind.echoRequest.toWire
/-- `src/icmp/timestamp/packet.rs:184-188`: writes the kind of an echo reply. -/
def makeReply : Mut Bytes Unit := setIdx 0 IcmpKind.echoReply.toWire
/-- `src/icmp/timestamp/packet.rs:191-196`. -/
def setIdentifier (v : U16) : Mut Bytes Unit := writeU16 4 v
/-- `src/icmp/timestamp/packet.rs:199-204`. -/
def setSequence (v : U16) : Mut Bytes Unit := writeU16 6 v
/-- `src/icmp/timestamp/packet.rs:207-212`. -/
def setOriginate (v : U32) : Mut Bytes Unit := writeU32 8 v
/-- `src/icmp/timestamp/packet.rs:215-220`. -/
def setReceive (v : U32) : Mut Bytes Unit := writeU32 12 v
/-- `src/icmp/timestamp/packet.rs:223-228`. -/
def setTransmit (v : U32) : Mut Bytes Unit := writeU32 16 v

/-- The setters of `Checked` (`src/icmp/timestamp/packet.rs:238-280`), as data. -/
inductive Set where
  | request
  | reply
  | identifier (v : U16)
  | sequence (v : U16)
  | originate (v : U32)
  | receive (v : U32)
  | transmit (v : U32)

/-- `src/icmp/timestamp/packet.rs:238-280`. -/
def Set.run : Set → Mut Bytes Unit
  | .request => makeRequest
  | .reply => makeReply
  | .identifier v => setIdentifier v
  | .sequence v => setSequence v
  | .originate v => setOriginate v
  | .receive v => setReceive v
  | .transmit v => setTransmit v

/-- `packet.checked()`, the calls `ops`, then `Drop` (`src/icmp/timestamp/packet.rs:231-235`,
`src/icmp/packet.rs:188-194`). -/
def checkedRun (cfg : Cfg) (ops : List Set) : Mut Bytes Unit := do
  runIgnoringErrors (ops.map Set.run)
  Icmp.dropChecked cfg size

end Timestamp

/-! ## Information -/

namespace Information

/-- `src/icmp/information/packet.rs:29-34`. -/
def headerMin : Nat := 8
/-- `src/icmp/information/packet.rs:29-34`. -/
def headerMax : Nat := 8
/-- `src/icmp/information/packet.rs:29-34`. -/
def headerSize (_ : Bytes) : Outcome Nat := .ok 8
/-- `src/icmp/information/packet.rs:36-40`. -/
def payloadMin : Nat := 0
/-- `src/icmp/information/packet.rs:36-40`. -/
def payloadMax : Nat := 0
/-- `src/icmp/information/packet.rs:36-40`. -/
def payloadSize (_ : Bytes) : Outcome Nat := .ok 0
/-- `src/size.rs:87-91`. -/
def size (b : Bytes) : Outcome Nat := do
  let h ← headerSize b
  let p ← payloadSize b
  .ok (h + p)
/-- `src/icmp/information/packet.rs:59-78`. -/
def new (b : Bytes) : Outcome Bytes :=
  Icmp.typedNew headerMin [.informationRequest, .informationReply] b
/-- `src/icmp/information/packet.rs:93-99`. -/
def asRef (b : Bytes) : Outcome Bytes := do
  let n ← size b
  sliceTo b n
/-- `src/icmp/information/packet.rs:122-132`. -/
def split (b : Bytes) : Outcome (Bytes × Bytes) := splitAt b 8
/-- `src/packet.rs:20-22`. -/
def header (b : Bytes) : Outcome Bytes := do
  let s ← split b
  .ok s.1
/-- `src/packet.rs:25-27`. -/
def payload (b : Bytes) : Outcome Bytes := do
  let s ← split b
  .ok s.2
/-- `src/icmp/information/packet.rs:136-138`. -/
def isRequest (b : Bytes) : Outcome Bool := do
  let x ← idx b 0
  .ok (IcmpKind.ofWire x == .informationRequest)
/-- `src/icmp/information/packet.rs:141-143`. -/
def isReply (b : Bytes) : Outcome Bool := do
  let x ← idx b 0
  .ok (IcmpKind.ofWire x == .informationReply)
/-- `src/icmp/information/packet.rs:146-148`. -/
def identifier (b : Bytes) : Outcome U16 := readU16At b 4
/-- `src/icmp/information/packet.rs:151-153`. -/
def sequence (b : Bytes) : Outcome U16 := readU16At b 6
/-- `src/icmp/information/packet.rs:158-162`: writes the kind of an echo request. -/
def makeRequest : Mut Bytes Unit := setIdx 0 IcmpKind.echoRequest.toWire
/-- `src/icmp/information/packet.rs:165-169`: writes the kind of an echo reply. -/
def makeReply : Mut Bytes Unit := setIdx 0 IcmpKind.echoReply.toWire
/-- `src/icmp/information/packet.rs:172-177`. -/
def setIdentifier (v : U16) : Mut Bytes Unit := writeU16 4 v
/-- `src/icmp/information/packet.rs:180-185`. -/
def setSequence (v : U16) : Mut Bytes Unit := writeU16 6 v

/-- The setters of `Checked` (`src/icmp/information/packet.rs:195-219`), as data. -/
inductive Set where
  | request
  | reply
  | identifier (v : U16)
  | sequence (v : U16)

/-- `src/icmp/information/packet.rs:195-219`. -/
def Set.run : Set → Mut Bytes Unit
  | .request => makeRequest
  | .reply => makeReply
  | .identifier v => setIdentifier v
  | .sequence v => setSequence v

/-- `packet.checked()`, the calls `ops`, then `Drop` (`src/icmp/information/packet.rs:188-192`,
`src/icmp/packet.rs:188-194`). -/
def checkedRun (cfg : Cfg) (ops : List Set) : Mut Bytes Unit := do
  runIgnoringErrors (ops.map Set.run)
  Icmp.dropChecked cfg size

end Information

/-! ## Messages that quote a packet -/

/-- `packet()` of `src/icmp/previous/packet.rs:145-147`, `src/icmp/redirect_message/packet.rs:150-152`
and `src/icmp/parameter_problem/packet.rs:148-150`. -/
def quotedPacket (b : Bytes) : Outcome Bytes := do
  let s ← sliceFrom b 8
  V4.new s

/-- The payload size of the three quoting messages (`src/icmp/previous/packet.rs:38-45`,
`src/icmp/redirect_message/packet.rs:39-46`, `src/icmp/parameter_problem/packet.rs:38-45`). -/
def quotedPayloadSize (cfg : Cfg) (b : Bytes) : Outcome Nat :=
  match quotedPacket b with
  | .ok ip => V4.headerSize ip
  | .err _ => subUsize cfg b.length 8
  | .panic => .panic

/-- `as_ref()` of the three quoting messages (`src/icmp/previous/packet.rs:100-106`,
`src/icmp/redirect_message/packet.rs:98-104`, `src/icmp/parameter_problem/packet.rs:98-104`). -/
def quotedAsRef (cfg : Cfg) (b : Bytes) : Outcome Bytes := do
  let p ← quotedPayloadSize cfg b
  let n ← addUsize cfg 8 p
  sliceTo b n

namespace Previous
/-- `src/icmp/previous/packet.rs:28-33`. -/
def headerMin : Nat := 8
/-- `src/icmp/previous/packet.rs:28-33`. -/
def headerMax : Nat := 8
/-- `src/icmp/previous/packet.rs:28-33`. -/
def headerSize (_ : Bytes) : Outcome Nat := .ok 8
/-- `src/icmp/previous/packet.rs:36`. -/
def payloadMin : Nat := V4.headerMin
/-- `src/icmp/previous/packet.rs:37`. -/
def payloadMax : Nat := V4.headerMax
/-- `src/icmp/previous/packet.rs:65-85`. -/
def new (b : Bytes) : Outcome Bytes :=
  Icmp.typedNew headerMin [.sourceQuench, .destinationUnreachable, .timeExceeded] b
/-- `src/icmp/previous/packet.rs:129-141`. -/
def split (b : Bytes) : Outcome (Bytes × Bytes) := do
  let s ← splitAt b 8
  let h ← sliceTo s.1 4
  .ok (h, s.2)
/-- `src/icmp/previous/packet.rs:145-147`. -/
def packet (b : Bytes) : Outcome Bytes := quotedPacket b
/-- `src/icmp/previous/packet.rs:38-45`. -/
def payloadSize (cfg : Cfg) (b : Bytes) : Outcome Nat := quotedPayloadSize cfg b
/-- `src/icmp/previous/packet.rs:100-106`. -/
def asRef (cfg : Cfg) (b : Bytes) : Outcome Bytes := quotedAsRef cfg b
end Previous

namespace Redirect
/-- `src/icmp/redirect_message/packet.rs:29-34`. -/
def headerMin : Nat := 8
/-- `src/icmp/redirect_message/packet.rs:29-34`. -/
def headerMax : Nat := 8
/-- `src/icmp/redirect_message/packet.rs:29-34`. -/
def headerSize (_ : Bytes) : Outcome Nat := .ok 8
/-- `src/icmp/redirect_message/packet.rs:37`. -/
def payloadMin : Nat := V4.headerMin
/-- `src/icmp/redirect_message/packet.rs:38`. -/
def payloadMax : Nat := V4.headerMax
/-- `src/icmp/redirect_message/packet.rs:65-83`. -/
def new (b : Bytes) : Outcome Bytes := Icmp.typedNew headerMin [.redirectMessage] b
/-- `src/icmp/redirect_message/packet.rs:127-137`. -/
def split (b : Bytes) : Outcome (Bytes × Bytes) := splitAt b 8
/-- `src/icmp/redirect_message/packet.rs:141-147`. -/
def gateway (b : Bytes) : Outcome Ipv4Addr := do
  let x0 ← idx b 4
  let x1 ← idx b 5
  let x2 ← idx b 6
  let x3 ← idx b 7
  .ok ⟨x0, x1, x2, x3⟩
/-- `src/icmp/redirect_message/packet.rs:150-152`. -/
def packet (b : Bytes) : Outcome Bytes := quotedPacket b
/-- `src/icmp/redirect_message/packet.rs:39-46`. -/
def payloadSize (cfg : Cfg) (b : Bytes) : Outcome Nat := quotedPayloadSize cfg b
/-- `src/icmp/redirect_message/packet.rs:98-104`. -/
def asRef (cfg : Cfg) (b : Bytes) : Outcome Bytes := quotedAsRef cfg b
end Redirect

namespace ParamProblem
/-- `src/icmp/parameter_problem/packet.rs:28-33`. -/
def headerMin : Nat := 8
/-- `src/icmp/parameter_problem/packet.rs:28-33`. -/
def headerMax : Nat := 8
/-- `src/icmp/parameter_problem/packet.rs:28-33`. -/
def headerSize (_ : Bytes) : Outcome Nat := .ok 8
/-- `src/icmp/parameter_problem/packet.rs:36`. -/
def payloadMin : Nat := V4.headerMin
/-- `src/icmp/parameter_problem/packet.rs:37`. -/
def payloadMax : Nat := V4.headerMax
/-- `src/icmp/parameter_problem/packet.rs:65-83`. -/
def new (b : Bytes) : Outcome Bytes := Icmp.typedNew headerMin [.parameterProblem] b
/-- `src/icmp/parameter_problem/packet.rs:127-139`. -/
def split (b : Bytes) : Outcome (Bytes × Bytes) := do
  let s ← splitAt b 8
  let h ← sliceTo s.1 5
  .ok (h, s.2)
/-- `src/icmp/parameter_problem/packet.rs:143-145`. -/
def pointer (b : Bytes) : Outcome U8 := idx b 4
/-- `src/icmp/parameter_problem/packet.rs:148-150`. -/
def packet (b : Bytes) : Outcome Bytes := quotedPacket b
/-- `src/icmp/parameter_problem/packet.rs:38-45`. -/
def payloadSize (cfg : Cfg) (b : Bytes) : Outcome Nat := quotedPayloadSize cfg b
/-- `src/icmp/parameter_problem/packet.rs:98-104`. -/
def asRef (cfg : Cfg) (b : Bytes) : Outcome Bytes := quotedAsRef cfg b
end ParamProblem

end Verif

import Verif.Model.Tables

/-!
# IPv4 and TCP options

`src/ip/v4/option.rs` and `src/tcp/option.rs` contain the same parser; they differ in how the first
byte is decoded.  The parser is written once, over the predicate "this first byte denotes `End` or
`NoOperation`", and instantiated below with the decoding of each file.  An `Option<B>` is the byte
string of its buffer, which may extend beyond the option.
-/

namespace Verif

/-- How the first byte of an option is decoded (`src/tcp/option.rs:157-159`, `src/ip/v4/option.rs:225-241`). -/
structure OptKind where
  /-- `number() == Number::End`. -/
  isEnd : U8 → Bool
  /-- `number()` is `End` or `NoOperation`. -/
  isSingle : U8 → Bool

/-- `src/ip/v4/option.rs:239-241,245-248`: the number is the low five bits. -/
def v4OptKind : OptKind where
  isEnd x := decide (V4OptNumber.ofWire (x &&& 0b11111#8) = .«end»)
  isSingle x := decide (V4OptNumber.ofWire (x &&& 0b11111#8) = .«end») ||
    decide (V4OptNumber.ofWire (x &&& 0b11111#8) = .noOperation)

/-- `src/tcp/option.rs:157-159,163-166`: the number is the whole byte. -/
def tcpOptKind : OptKind where
  isEnd x := decide (TcpOptNumber.ofWire x = .«end»)
  isSingle x := decide (TcpOptNumber.ofWire x = .«end») ||
    decide (TcpOptNumber.ofWire x = .noOperation)

namespace Opt

/-- `src/ip/v4/option.rs:25-42`, `src/tcp/option.rs:26-43`. -/
def headerMin : Nat := 1
/-- `src/ip/v4/option.rs:25-42`, `src/tcp/option.rs:26-43`. -/
def headerMax : Nat := 2
/-- `src/ip/v4/option.rs:25-42`, `src/tcp/option.rs:26-43`. -/
def payloadMin : Nat := 0
/-- `src/ip/v4/option.rs:25-42`, `src/tcp/option.rs:26-43`. -/
def payloadMax : Nat := 32

/-- `src/ip/v4/option.rs:244-253`, `src/tcp/option.rs:162-171`. -/
def length (k : OptKind) (b : Bytes) : Outcome U8 := do
  let x ← idx b 0
  if k.isSingle x then .ok 1#8 else idx b 1

/-- `src/ip/v4/option.rs:29-32`, `src/tcp/option.rs:30-33`. -/
def headerSize (k : OptKind) (b : Bytes) : Outcome Nat := do
  let n ← length k b
  if n = 1#8 then .ok 1 else .ok 2

/-- `src/ip/v4/option.rs:38-41`, `src/tcp/option.rs:39-42`: `n as usize - 2` underflows for 0. -/
def payloadSize (cfg : Cfg) (k : OptKind) (b : Bytes) : Outcome Nat := do
  let n ← length k b
  if n = 1#8 then .ok 0 else subUsize cfg n.toNat 2

/-- `src/size.rs:87-91`. -/
def size (cfg : Cfg) (k : OptKind) (b : Bytes) : Outcome Nat := do
  let h ← headerSize k b
  let p ← payloadSize cfg k b
  addUsize cfg h p

/-- `src/ip/v4/option.rs:150-166`, `src/tcp/option.rs:85-99`. -/
def new (k : OptKind) (b : Bytes) : Outcome Bytes :=
  if b.length < headerMin then .err .smallBuffer
  else do
    let n ← length k b
    if b.length < n.toNat then .err .smallBuffer else .ok b

/-- `src/ip/v4/option.rs:169-175`, `src/tcp/option.rs:102-108`. -/
def asRef (cfg : Cfg) (k : OptKind) (b : Bytes) : Outcome Bytes := do
  let n ← size cfg k b
  sliceTo b n

/-- `src/ip/v4/option.rs:198-220`, `src/tcp/option.rs:131-153`. -/
def split (k : OptKind) (b : Bytes) : Outcome (Bytes × Bytes) := do
  let n ← length k b
  if n = 1#8 then splitAt b 1
  else do
    let s ← sliceTo b n.toNat
    splitAt s 2

/-- `src/packet.rs:20-22`. -/
def header (k : OptKind) (b : Bytes) : Outcome Bytes := do
  let s ← split k b
  .ok s.1

/-- `src/packet.rs:25-27`. -/
def payload (k : OptKind) (b : Bytes) : Outcome Bytes := do
  let s ← split k b
  .ok s.2

/-- One call of `OptionIter::next` (`src/ip/v4/packet.rs:451-471`, `src/tcp/packet.rs:359-379`): the
state is the iterator's remaining buffer, the result `None`, `Some(Err(e))` or `Some(Ok(option))`. -/
def next (cfg : Cfg) (k : OptKind) : Mut Bytes (Option (Except Error Bytes)) := fun b =>
  if b.isEmpty then (.ok none, b)
  else
    match new k b with
    | .ok option =>
      match idx option 0 with
      | .ok x =>
        if k.isEnd x then (.ok none, b)
        else
          match size cfg k option with
          | .ok n =>
            match sliceFrom b n with
            | .ok rest => (.ok (some (.ok option)), rest)
            | _ => (.panic, b)
          | _ => (.panic, b)
      | _ => (.panic, b)
    | .err e => (.ok (some (.error e)), b)
    | .panic => (.panic, b)

/-- `n` calls of `next`: the items yielded (stopping at the first `None`), or a panic (calls of
`src/tcp/packet.rs:359-379`, `src/ip/v4/packet.rs:451-471`). -/
def take (cfg : Cfg) (k : OptKind) : Nat → Mut Bytes (List (Except Error Bytes))
  | 0 => fun b => (.ok [], b)
  | n + 1 => fun b =>
    match next cfg k b with
    | (.ok none, b') => (.ok [], b')
    | (.ok (some item), b') =>
      match take cfg k n b' with
      | (.ok items, b'') => (.ok (item :: items), b'')
      | (.err e, b'') => (.err e, b'')
      | (.panic, b'') => (.panic, b'')
    | (.err e, b') => (.err e, b')
    | (.panic, b') => (.panic, b')

end Opt

namespace V4Opt

/-- `src/ip/v4/option.rs:225-227`. -/
def isCopied (b : Bytes) : Outcome Bool := do
  let x ← idx b 0
  .ok (x >>> 7 == 1#8)

/-- `src/ip/v4/option.rs:230-236`. -/
def class_ (b : Bytes) : Outcome V4OptClass := do
  let x ← idx b 0
  let v := (x >>> 5) &&& 0b011#8
  if v = 0#8 then .ok .control
  else if v = 2#8 then .ok .debugging
  else .ok (.reserved v)

/-- `src/ip/v4/option.rs:239-241`. -/
def number (b : Bytes) : Outcome V4OptNumber := do
  let x ← idx b 0
  .ok (V4OptNumber.ofWire (x &&& 0b11111#8))

end V4Opt

namespace TcpOpt

/-- `src/tcp/option.rs:157-159`. -/
def number (b : Bytes) : Outcome TcpOptNumber := do
  let x ← idx b 0
  .ok (TcpOptNumber.ofWire x)

end TcpOpt

end Verif

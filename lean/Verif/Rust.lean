/-!
# The fragment of Rust the model is written in

Machine integers, `Result`, panics, slices, `std::io::Cursor` and the `byteorder` helpers that
meh/rust-packet uses.  Nothing here is specific to the crate: the definitions transcribe the
documented behaviour of the language, of `std` and of `byteorder`.
-/

namespace Verif

/-- `u8` (for instance the fields at `src/ip/v4/packet.rs:228-230`). -/
abbrev U8 := BitVec 8
/-- `u16` (for instance `src/ip/v4/packet.rs:207-209`). -/
abbrev U16 := BitVec 16
/-- `u32` (for instance `src/tcp/packet.rs:152-154`). -/
abbrev U32 := BitVec 32

/-- The contents of a `[u8]` (the buffers behind `AsRef<[u8]>`, for instance `src/ether/packet.rs:25-27`). -/
abbrev Bytes := List U8

/-- `src/error.rs:18-37`.  The payloads of `Io` and `Nul` are not modelled; `Nul` is never produced. -/
inductive Error where
  | smallBuffer
  | invalidPacket
  | invalidValue
  | alreadyDefined
  | io
  | nul
  deriving DecidableEq, Repr

/-- What a call may do: return `Ok`, return `Err`, or panic.
`src/error.rs:39` (`Result<T>`), plus the panics of the language as data. -/
inductive Outcome (α : Type) where
  | ok (a : α)
  | err (e : Error)
  | panic
  deriving DecidableEq, Repr

namespace Outcome

/-- The `?` operator (everywhere in `src/`, for instance `src/ether/builder.rs:80`). -/
def bind {α β : Type} (x : Outcome α) (f : α → Outcome β) : Outcome β :=
  match x with
  | ok a => f a
  | err e => err e
  | panic => panic

/-- `?` in `src/`. -/
instance : Monad Outcome where
  pure := ok
  bind := bind

@[simp] theorem pure_eq {α : Type} (a : α) : (pure a : Outcome α) = ok a := rfl
@[simp] theorem ok_bind {α β : Type} (a : α) (f : α → Outcome β) : (ok a >>= f) = f a := rfl
@[simp] theorem err_bind {α β : Type} (e : Error) (f : α → Outcome β) :
    ((err e : Outcome α) >>= f) = err e := rfl
@[simp] theorem panic_bind {α β : Type} (f : α → Outcome β) :
    ((panic : Outcome α) >>= f) = panic := rfl
@[simp] theorem ok_map {α β : Type} (a : α) (f : α → β) : (f <$> ok a) = ok (f a) := rfl
@[simp] theorem err_map {α β : Type} (e : Error) (f : α → β) :
    (f <$> (err e : Outcome α)) = err e := rfl
@[simp] theorem panic_map {α β : Type} (f : α → β) : (f <$> (panic : Outcome α)) = panic := rfl

/-- `?` in `src/`. -/
instance : LawfulMonad Outcome := LawfulMonad.mk'
  (id_map := by intro α x; cases x <;> rfl)
  (pure_bind := by intros; rfl)
  (bind_assoc := by intro α β γ x f g; cases x <;> rfl)

/-- `Result::unwrap`: panics on `Err` (for instance `src/ip/v4/packet.rs:208`). -/
def unwrap {α : Type} : Outcome α → Outcome α
  | ok a => ok a
  | _ => panic

@[simp] theorem unwrap_ok {α : Type} (a : α) : (ok a).unwrap = ok a := rfl
@[simp] theorem unwrap_err {α : Type} (e : Error) : (err e : Outcome α).unwrap = panic := rfl
@[simp] theorem unwrap_panic {α : Type} : (panic : Outcome α).unwrap = panic := rfl

/-- The call returned (with a value or an error); it did not panic (what the statements about panics in `src/` say).
-/
def returns {α : Type} (x : Outcome α) : Prop := x ≠ panic

end Outcome

/-- A `&mut σ` method: it leaves a state behind on every exit, including `Err` and panics (for instance
`src/buffer/slice.rs:49`, `src/ether/packet.rs:145`). -/
def Mut (σ α : Type) := σ → Outcome α × σ

namespace Mut

/-- Sequencing with `?`: an `Err` or a panic stops and keeps the state reached so far (for instance
`src/ether/builder.rs:108-109`). -/
def bind {σ α β : Type} (x : Mut σ α) (f : α → Mut σ β) : Mut σ β := fun s =>
  match x s with
  | (.ok a, s') => f a s'
  | (.err e, s') => (.err e, s')
  | (.panic, s') => (.panic, s')

/-- `?` on `&mut` methods in `src/`. -/
instance {σ : Type} : Monad (Mut σ) where
  pure a := fun s => (.ok a, s)
  bind := bind

/-- A computation that only reads the state (for instance the accessor calls in `src/ip/v4/packet.rs:280`). -/
def read {σ α : Type} (f : σ → Outcome α) : Mut σ α := fun s => (f s, s)

/-- Return an error without touching the state (for instance `src/ip/v4/packet.rs:276-278`). -/
def fail {σ α : Type} (e : Error) : Mut σ α := fun s => (.err e, s)

/-- Panic without touching the state (for instance indexing out of range at `src/ip/v4/packet.rs:324`). -/
def panic {σ α : Type} : Mut σ α := fun s => (.panic, s)

/-- `.unwrap()` on the result of a mutating call (for instance `src/icmp/packet.rs:192`). -/
def unwrap {σ α : Type} (x : Mut σ α) : Mut σ α := fun s => ((x s).1.unwrap, (x s).2)

theorem pure_apply {σ α : Type} (a : α) (s : σ) : (pure a : Mut σ α) s = (.ok a, s) := rfl
theorem bind_apply {σ α β : Type} (x : Mut σ α) (f : α → Mut σ β) (s : σ) :
    (x >>= f) s = match x s with
      | (.ok a, s') => f a s'
      | (.err e, s') => (.err e, s')
      | (.panic, s') => (.panic, s') := rfl

theorem bind_ok {σ α β : Type} {x : Mut σ α} {f : α → Mut σ β} {s s' : σ} {a : α}
    (h : x s = (.ok a, s')) : (x >>= f) s = f a s' := by
  simp [bind_apply, h]

end Mut

/-! ## What the source text does not determine -/

/-- Build and toolchain parameters a theorem may quantify over (the arithmetic of `src/` and the loops over `Cursor`
in `src/udp/mod.rs:68-81`, `src/tcp/mod.rs:75-91`). -/
structure Cfg where
  /-- Arithmetic overflow panics (`debug` profile) instead of wrapping (`release` profile). -/
  overflowChecks : Bool
  /-- A `read_exact` on a `Cursor` that hits the end of the data moves the position to the end
  (recent `std`) instead of leaving it where it was (older `std`). -/
  eofAdvances : Bool
  /-- The target has 32-bit pointers and `usize` instead of 64-bit ones (16-bit targets have no `std`). -/
  narrow : Bool

/-- One more than `usize::MAX` (the type of every length in `src/`, for instance `src/buffer/buffer.rs:35`). -/
def Cfg.usizeMod (cfg : Cfg) : Nat := if cfg.narrow then 2 ^ 32 else 2 ^ 64

/-- `isize::MAX`: no slice, `Vec<u8>` or other object is larger (bounds the storage of `src/buffer/slice.rs:22` and the
`Vec` of `src/buffer/dynamic.rs:22`). -/
def Cfg.isizeMax (cfg : Cfg) : Nat := if cfg.narrow then 2 ^ 31 - 1 else 2 ^ 63 - 1

/-- `a + b` on `usize` (for instance `src/buffer/dynamic.rs:43,47`). -/
def addUsize (cfg : Cfg) (a b : Nat) : Outcome Nat :=
  if a + b < cfg.usizeMod then .ok (a + b)
  else if cfg.overflowChecks then .panic else .ok ((a + b) % cfg.usizeMod)

/-- `a - b` on `usize` (for instance `src/buffer/slice.rs:75`, `src/tcp/builder.rs:168`). -/
def subUsize (cfg : Cfg) (a b : Nat) : Outcome Nat :=
  if b ≤ a then .ok (a - b)
  else if cfg.overflowChecks then .panic else .ok (cfg.usizeMod + a - b)

/-- `a + b` on `u32` (for instance `src/ip/v4/mod.rs:43`). -/
def addU32 (cfg : Cfg) (a b : U32) : Outcome U32 :=
  if a.toNat + b.toNat < 2 ^ 32 then .ok (a + b)
  else if cfg.overflowChecks then .panic else .ok (a + b)

/-- `a - b` on `u32` (for instance `src/ip/v4/mod.rs:46`). -/
def subU32 (cfg : Cfg) (a b : U32) : Outcome U32 :=
  if b.toNat ≤ a.toNat then .ok (a - b)
  else if cfg.overflowChecks then .panic else .ok (a - b)

/-! ## Slices -/

/-- `b[i]` (for instance `src/ip/v4/packet.rs:188`). -/
def idx (b : Bytes) (i : Nat) : Outcome U8 :=
  match b[i]? with
  | some x => .ok x
  | none => .panic

/-- `&b[i ..]` (for instance `src/tcp/packet.rs:372`). -/
def sliceFrom (b : Bytes) (i : Nat) : Outcome Bytes :=
  if i ≤ b.length then .ok (b.drop i) else .panic

/-- `&b[.. j]` (for instance `src/tcp/packet.rs:101`). -/
def sliceTo (b : Bytes) (j : Nat) : Outcome Bytes :=
  if j ≤ b.length then .ok (b.take j) else .panic

/-- `&b[i .. j]` (for instance `src/tcp/packet.rs:195`). -/
def slice (b : Bytes) (i j : Nat) : Outcome Bytes :=
  if i ≤ j ∧ j ≤ b.length then .ok ((b.take j).drop i) else .panic

/-- `b.split_at(i)` (for instance `src/ether/packet.rs:116`). -/
def splitAt (b : Bytes) (i : Nat) : Outcome (Bytes × Bytes) :=
  if i ≤ b.length then .ok (b.take i, b.drop i) else .panic

/-- `n` zero bytes (for instance `src/buffer/dynamic.rs:47`). -/
def zeros (n : Nat) : Bytes := List.replicate n 0#8

/-- Overwrite `bs.length` bytes of `b` from offset `off` on (the effect of the writes below, for instance
`src/ether/packet.rs:146`). -/
def put (b : Bytes) (off : Nat) (bs : Bytes) : Bytes :=
  b.take off ++ bs ++ b.drop (off + bs.length)

/-- `b[i] = v` (for instance `src/ip/v4/packet.rs:324`). -/
def setIdx (i : Nat) (v : U8) : Mut Bytes Unit := fun b =>
  if i < b.length then (.ok (), put b i [v]) else (.panic, b)

/-- `b[i .. j].copy_from_slice(bs)` (for instance `src/ether/packet.rs:146`). -/
def copyRange (i j : Nat) (bs : Bytes) : Mut Bytes Unit := fun b =>
  if i ≤ j ∧ j ≤ b.length ∧ bs.length = j - i then (.ok (), put b i bs) else (.panic, b)

/-- `Cursor::new(&mut b[off ..]).write_all(bs)`: slicing panics when `off` is out of range; a short
slice is filled as far as it goes and the call returns `Err` (`WriteZero`) (for instance
`src/udp/packet.rs:196-197`). -/
def cursorWrite (off : Nat) (bs : Bytes) : Mut Bytes Unit := fun b =>
  if off ≤ b.length then
    if bs.length ≤ b.length - off then (.ok (), put b off bs)
    else (.err .io, put b off (bs.take (b.length - off)))
  else (.panic, b)

/-! ## `byteorder` -/

/-- `u16::to_be_bytes` (inside `write_u16::<BigEndian>`, `src/udp/packet.rs:197`). -/
def be16 (v : U16) : Bytes :=
  [BitVec.ofNat 8 (v.toNat / 256), BitVec.ofNat 8 v.toNat]

/-- `u32::to_be_bytes` (inside `write_u32::<BigEndian>`, `src/tcp/packet.rs:220`). -/
def be32 (v : U32) : Bytes :=
  [BitVec.ofNat 8 (v.toNat / 16777216), BitVec.ofNat 8 (v.toNat / 65536),
   BitVec.ofNat 8 (v.toNat / 256), BitVec.ofNat 8 v.toNat]

/-- `u16::from_be_bytes` (inside `read_u16::<BigEndian>`, `src/udp/packet.rs:169`). -/
def fromBe16 (a b : U8) : U16 := BitVec.ofNat 16 (a.toNat * 256 + b.toNat)

/-- `u32::from_be_bytes` (inside `read_u32::<BigEndian>`, `src/tcp/packet.rs:153`). -/
def fromBe32 (a b c d : U8) : U32 :=
  BitVec.ofNat 32 (((a.toNat * 256 + b.toNat) * 256 + c.toNat) * 256 + d.toNat)

/-- `(&b[..]).read_u16::<BigEndian>()` on a slice reader (`src/udp/packet.rs:169`). -/
def readU16 : Bytes → Outcome U16
  | a :: b :: _ => .ok (fromBe16 a b)
  | _ => .err .io

/-- `(&b[..]).read_u32::<BigEndian>()` on a slice reader (`src/tcp/packet.rs:153`). -/
def readU32 : Bytes → Outcome U32
  | a :: b :: c :: d :: _ => .ok (fromBe32 a b c d)
  | _ => .err .io

/-- `(&b[off ..]).read_u16::<BigEndian>().unwrap()` (for instance `src/udp/packet.rs:169`). -/
def readU16At (b : Bytes) (off : Nat) : Outcome U16 := do
  let s ← sliceFrom b off
  (readU16 s).unwrap

/-- `(&b[off ..]).read_u32::<BigEndian>().unwrap()` (for instance `src/tcp/packet.rs:153`). -/
def readU32At (b : Bytes) (off : Nat) : Outcome U32 := do
  let s ← sliceFrom b off
  (readU32 s).unwrap

/-- `Cursor::new(&mut b[off ..]).write_u16::<BigEndian>(v)` (for instance `src/udp/packet.rs:196-197`). -/
def writeU16 (off : Nat) (v : U16) : Mut Bytes Unit := cursorWrite off (be16 v)

/-- `Cursor::new(&mut b[off ..]).write_u32::<BigEndian>(v)` (for instance `src/tcp/packet.rs:219-220`). -/
def writeU32 (off : Nat) (v : U32) : Mut Bytes Unit := cursorWrite off (be32 v)

/-! ## `std::io::Cursor` over a slice, for reading -/

/-- A read cursor: the bytes not yet consumed and the value of `position()` (`src/ip/v4/mod.rs:35`,
`src/udp/mod.rs:51`). -/
structure Cursor where
  rest : Bytes
  pos : Nat

namespace Cursor

/-- `Cursor::new(data)` (`src/ip/v4/mod.rs:35`). -/
def new (data : Bytes) : Cursor := ⟨data, 0⟩

/-- State of the cursor after a `read_exact` that failed at the end of the data (`src/udp/mod.rs:68,81`,
`src/tcp/mod.rs:75,90`). -/
def atEof (cfg : Cfg) (c : Cursor) : Cursor :=
  if cfg.eofAdvances then ⟨[], c.pos + c.rest.length⟩ else c

/-- `read_u16::<BigEndian>()` (`src/ip/v4/mod.rs:37`). -/
def readU16 (cfg : Cfg) (c : Cursor) : Outcome U16 × Cursor :=
  match c.rest with
  | a :: b :: r => (.ok (fromBe16 a b), ⟨r, c.pos + 2⟩)
  | _ => (.err .io, c.atEof cfg)

/-- `read_u8()` (`src/udp/mod.rs:81`, `src/tcp/mod.rs:90`). -/
def readU8 (cfg : Cfg) (c : Cursor) : Outcome U8 × Cursor :=
  match c.rest with
  | a :: r => (.ok a, ⟨r, c.pos + 1⟩)
  | _ => (.err .io, c.atEof cfg)

end Cursor

/-- Run `f` on the first component of `split` (`self.header_mut()` and the like): the bytes of the
header are replaced by what `f` leaves, the bytes behind it stay (`src/packet.rs:36-38`, for instance at
`src/udp/packet.rs:196`). -/
def onHeader (split : Bytes → Outcome (Bytes × Bytes)) (f : Mut Bytes Unit) : Mut Bytes Unit :=
  fun b =>
    match split b with
    | .ok (h, _) => ((f h).1, (f h).2 ++ b.drop h.length)
    | .err e => (.err e, b)
    | .panic => (.panic, b)

end Verif

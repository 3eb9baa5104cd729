import Verif.Rust

/-!
# `packet::buffer` and `packet::builder`

`usize` arguments are natural numbers; theorems that need it assume them below `cfg.usizeMod`.
-/

namespace Verif

/-- `src/buffer/mod.rs:42-72`, `trait Buffer`.  `data` and `data_mut` slice the storage and may
panic; `modifyData f` is "run `f` on `self.data_mut()`". `intoInner` is the contents of `B::Inner`.
`AsRef`/`AsMut`/`Deref`/`DerefMut` of both buffers are `data`/`data_mut`
(`src/buffer/dynamic.rs:93-121`, `src/buffer/slice.rs:109-137`). -/
class Buffer (B : Type) where
  intoInner : B → Outcome Bytes
  next : Cfg → Nat → Mut B Unit
  more : Cfg → Nat → Mut B Unit
  clear : B → B
  used : B → Nat
  offset : B → Nat
  length : B → Nat
  data : Cfg → B → Outcome Bytes
  modifyData : {α : Type} → Cfg → Mut Bytes α → Mut B α

/-- `Vec::<u8>::resize(n, 0)`; a request above `isize::MAX` panics (capacity overflow). Allocation
failure (an abort of the process) is not modelled (`src/buffer/dynamic.rs:47,54`). -/
def vecResize (cfg : Cfg) (v : Bytes) (n : Nat) : Outcome Bytes :=
  if n ≤ cfg.isizeMax then .ok (v.take n ++ zeros (n - v.length)) else .panic

/-! ## `buffer::Dynamic` -/

/-- `src/buffer/dynamic.rs:21-26`. -/
structure Dynamic where
  inner : Bytes
  offset : Nat
  length : Nat
  deriving DecidableEq

namespace Dynamic

/-- `src/buffer/dynamic.rs:20,30-32`, `Dynamic::new` / `Default`. -/
def new : Dynamic := ⟨[], 0, 0⟩

/-- `src/buffer/dynamic.rs:42-50`. -/
def next (cfg : Cfg) (size : Nat) : Mut Dynamic Unit := fun b =>
  match addUsize cfg b.offset b.length with
  | .ok off =>
    let b := { b with offset := off, length := size }
    let current := b.inner.length
    match addUsize cfg current size with
    | .ok n =>
      match vecResize cfg b.inner n with
      | .ok v => (.ok (), { b with inner := v })
      | .err e => (.err e, b)
      | .panic => (.panic, b)
    | .err e => (.err e, b)
    | .panic => (.panic, b)
  | .err e => (.err e, b)
  | .panic => (.panic, b)

/-- `src/buffer/dynamic.rs:52-58`. -/
def more (cfg : Cfg) (size : Nat) : Mut Dynamic Unit := fun b =>
  let current := b.inner.length
  match addUsize cfg current size with
  | .ok n =>
    match vecResize cfg b.inner n with
    | .ok v =>
      let b := { b with inner := v }
      match addUsize cfg b.length size with
      | .ok l => (.ok (), { b with length := l })
      | .err e => (.err e, b)
      | .panic => (.panic, b)
    | .err e => (.err e, b)
    | .panic => (.panic, b)
  | .err e => (.err e, b)
  | .panic => (.panic, b)

/-- `src/buffer/dynamic.rs:60-64`. -/
def clear (_ : Dynamic) : Dynamic := ⟨[], 0, 0⟩

/-- `src/buffer/dynamic.rs:78-80`, `&self.inner[self.offset .. self.offset + self.length]`. -/
def data (cfg : Cfg) (b : Dynamic) : Outcome Bytes := do
  let stop ← addUsize cfg b.offset b.length
  slice b.inner b.offset stop

/-- `src/buffer/dynamic.rs:82-84`: run `f` on `data_mut()`. -/
def modifyData {α : Type} (cfg : Cfg) (f : Mut Bytes α) : Mut Dynamic α := fun b =>
  match data cfg b with
  | .ok d => ((f d).1, { b with inner := put b.inner b.offset (f d).2 })
  | .err e => (.err e, b)
  | .panic => (.panic, b)

end Dynamic

/-- `src/buffer/dynamic.rs:35-85`. -/
instance : Buffer Dynamic where
  intoInner b := .ok b.inner
  next := Dynamic.next
  more := Dynamic.more
  clear := Dynamic.clear
  used b := b.inner.length
  offset b := b.offset
  length b := b.length
  data := Dynamic.data
  modifyData := Dynamic.modifyData

/-! ## `buffer::Slice` -/

/-- `src/buffer/slice.rs:21-27`. -/
structure Slice where
  inner : Bytes
  offset : Nat
  length : Nat
  used : Nat
  deriving DecidableEq

namespace Slice

/-- `src/buffer/slice.rs:31-39`. -/
def new (storage : Bytes) : Slice := ⟨storage, 0, 0, 0⟩

/-- `src/buffer/slice.rs:100-102`. -/
def data (cfg : Cfg) (b : Slice) : Outcome Bytes := do
  let stop ← addUsize cfg b.offset b.length
  slice b.inner b.offset stop

/-- `src/buffer/slice.rs:104-106`: run `f` on `data_mut()`. -/
def modifyData {α : Type} (cfg : Cfg) (f : Mut Bytes α) : Mut Slice α := fun b =>
  match data cfg b with
  | .ok d => ((f d).1, { b with inner := put b.inner b.offset (f d).2 })
  | .err e => (.err e, b)
  | .panic => (.panic, b)

/-- `for byte in d { *byte = 0 }` (`src/buffer/slice.rs:58-60`). -/
def zeroAll : Mut Bytes Unit := fun d => (.ok (), zeros d.length)

/-- `for byte in &mut d[from ..] { *byte = 0 }` (`src/buffer/slice.rs:75-77`). -/
def zeroFrom (start : Nat) : Mut Bytes Unit := fun d =>
  if start ≤ d.length then (.ok (), d.take start ++ zeros (d.length - start)) else (.panic, d)

/-- `src/buffer/slice.rs:49-63`. -/
def next (cfg : Cfg) (size : Nat) : Mut Slice Unit := fun b =>
  match addUsize cfg b.used size with
  | .ok total =>
    if b.inner.length < total then (.err .smallBuffer, b)
    else
      match addUsize cfg b.used size with
      | .ok used =>
        modifyData cfg zeroAll { b with offset := b.used, length := size, used := used }
      | _ => (.panic, { b with offset := b.used, length := size })
  | .err e => (.err e, b)
  | .panic => (.panic, b)

/-- `src/buffer/slice.rs:65-80`.  Note line 70: the offset is moved to the old end of the buffer. -/
def more (cfg : Cfg) (size : Nat) : Mut Slice Unit := fun b =>
  match addUsize cfg b.used size with
  | .ok total =>
    if b.inner.length < total then (.err .smallBuffer, b)
    else
      let b := { b with offset := b.used }
      match addUsize cfg b.length size with
      | .ok length =>
        let b := { b with length := length }
        match addUsize cfg b.used size with
        | .ok used =>
          let b := { b with used := used }
          match subUsize cfg length size with
          | .ok start => modifyData cfg (zeroFrom start) b
          | _ => (.panic, b)
        | _ => (.panic, b)
      | _ => (.panic, b)
  | .err e => (.err e, b)
  | .panic => (.panic, b)

/-- `src/buffer/slice.rs:82-86`. -/
def clear (b : Slice) : Slice := { b with offset := 0, length := 0, used := 0 }

/-- `src/buffer/slice.rs:45-47`, `&mut self.inner[0 .. self.used]`. -/
def intoInner (b : Slice) : Outcome Bytes := slice b.inner 0 b.used

end Slice

/-- `src/buffer/slice.rs:42-107`. -/
instance : Buffer Slice where
  intoInner := Slice.intoInner
  next := Slice.next
  more := Slice.more
  clear := Slice.clear
  used b := b.used
  offset b := b.offset
  length b := b.length
  data := Slice.data
  modifyData := Slice.modifyData

/-! ## Finalizers -/

/-- `src/builder.rs:23-33`: a boxed `FnOnce(&mut [u8]) -> Result<()>`. -/
abbrev Finalizer := Mut Bytes Unit

/-- `src/builder.rs:36`, `struct Finalization(Vec<Box<dyn Finalizer>>)`. -/
abbrev Finalization := List Finalizer

namespace Finalization

/-- `src/builder.rs:54-56`. -/
def add (fs : Finalization) (f : Finalizer) : Finalization := fs ++ [f]

/-- `src/builder.rs:59-61`. -/
def extend (fs gs : Finalization) : Finalization := fs ++ gs

/-- The loop body of `finalize`, over the finalizers in the order they are run (`src/builder.rs:65-67`). -/
def runAll : List Finalizer → Mut Bytes Unit
  | [] => pure ()
  | f :: fs => do f; runAll fs

/-- `src/builder.rs:64-70`: `self.0.into_iter().rev()`. -/
def finalize (fs : Finalization) : Mut Bytes Unit := runAll fs.reverse

end Finalization

/-- The common tail of every `build`: `let mut buffer = self.buffer.into_inner();
self.finalizer.finalize(buffer.as_mut())?; Ok(buffer)`, for instance `src/ether/builder.rs:52-56`. -/
def buildTail {B : Type} [Buffer B] (buffer : B) (fs : Finalization) : Outcome Bytes := do
  let inner ← Buffer.intoInner buffer
  match Finalization.finalize fs inner with
  | (.ok (), out) => .ok out
  | (.err e, _) => .err e
  | (.panic, _) => .panic

/-- `*self.buffer.data_mut().last_mut().unwrap() = byte` (`src/ether/builder.rs:109` and the same line of the other
builders). -/
def setLast (v : U8) : Mut Bytes Unit := fun d =>
  if d.length = 0 then (.panic, d) else (.ok (), put d (d.length - 1) [v])

/-- The loop of every builder's `payload`: `for byte in value { self.buffer.more(1)?;
*self.buffer.data_mut().last_mut().unwrap() = *byte; }`, for instance `src/ether/builder.rs:107-110`. -/
def appendAll {B : Type} [Buffer B] (cfg : Cfg) : Bytes → Mut B Unit
  | [] => pure ()
  | v :: vs => do
    Buffer.more cfg 1
    Buffer.modifyData cfg (setLast v)
    appendAll cfg vs

/-- Run a mutation of the buffer inside a builder that is consumed by value (every method of a builder takes
`mut self`, for instance `src/ether/builder.rs:79-83`). -/
def onBuffer {B α : Type} (f : Mut B α) (b : B) : Outcome B :=
  match f b with
  | (.ok _, b') => .ok b'
  | (.err e, _) => .err e
  | (.panic, _) => .panic

end Verif

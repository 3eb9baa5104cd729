import Verif.Model.Buffer

/-!
# The derived `PartialEq` and `Clone` of the buffers
-/

namespace Verif

/-- `src/buffer/dynamic.rs:20`, `#[derive(PartialEq)]`: field by field, in the order of declaration. -/
def Dynamic.eq (a b : Dynamic) : Bool := a.inner == b.inner && (a.offset == b.offset && a.length == b.length)

/-- `src/buffer/slice.rs:20`, `#[derive(PartialEq)]`: field by field; `&mut [u8]` compares the bytes it points to, so
the whole storage takes part. -/
def Slice.eq (a b : Slice) : Bool :=
  a.inner == b.inner && (a.offset == b.offset && (a.length == b.length && a.used == b.used))

/-- `src/buffer/dynamic.rs:20`, `#[derive(Clone)]`: every field is cloned. -/
def Dynamic.clone (b : Dynamic) : Dynamic := ⟨b.inner, b.offset, b.length⟩

end Verif

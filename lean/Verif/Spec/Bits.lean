import Verif.Rust

/-!
# Specification vocabulary: bit fields of a message

Protocol headers are described by RFC diagrams: bit 0 is the most significant bit of the first byte.
A header field is a pair (first bit, width).  Nothing in this file refers to the model.
-/

namespace Verif.Spec

/-- Bit `i` of a message, counted from the most significant bit of byte 0 (`false` past the end). -/
def bitAt (b : Bytes) (i : Nat) : Bool := (b.getD (i / 8) 0#8).getMsbD (i % 8)

/-- The unsigned big-endian number in the `w` bits of the message that start at bit `s`. -/
def field (b : Bytes) (s : Nat) : Nat → Nat
  | 0 => 0
  | w + 1 => 2 * field b s w + (bitAt b (s + w)).toNat

/-- `b'` is `b` with the field `(s, w)` set to `v`: same length, the field reads `v`, every bit
outside the field is as it was. -/
structure SetsField (b b' : Bytes) (s w v : Nat) : Prop where
  length : b'.length = b.length
  value : field b' s w = v
  frame : ∀ i, i < s ∨ s + w ≤ i → bitAt b' i = bitAt b i

/-- The unsigned big-endian number written by a byte string. -/
def beNat (bs : Bytes) : Nat := bs.foldl (fun n x => n * 256 + x.toNat) 0

/-- Two messages of the same length that agree outside the bytes `[lo, hi)`. -/
structure SameOutside (b b' : Bytes) (lo hi : Nat) : Prop where
  length : b'.length = b.length
  frame : ∀ i, i < lo ∨ hi ≤ i → b'[i]? = b[i]?

/-- The last value a history of calls gave to a field, or the initial value `d`. -/
def last {Op α : Type} (f : Op → Option α) (d : α) (ops : List Op) : α :=
  ((ops.filterMap f).getLast?).getD d

end Verif.Spec

import Verif.Rust

/-!
# What `payload()` writes on a static buffer

The layer on top of the buffer has `L` bytes; `rest` is what the storage held behind it when the buffer
was made.
-/

namespace Verif.Spec
open Verif

/-- The bytes that end up behind a layer of `L` bytes when `v` is given as payload: byte `i` of `v` goes to
place `L + 2 * i`; a place nothing goes to keeps what the storage held. -/
def misplaced (L : Nat) (rest v : Bytes) : Bytes :=
  (List.range v.length).map fun j =>
    if L ≤ j ∧ (j - L) % 2 = 0 then v.getD ((j - L) / 2) 0#8 else rest.getD j 0#8

/-- How `payload(v)` ends (`v` not empty) when `used` of `cap` bytes are taken and the layer has `L ≥ 1` bytes:
refused without a byte left, a panic unless the last byte's place `used + L + 2 * (n - 1)` is inside. -/
inductive PayloadEnd where
  | refused
  | panics
  | stored
  deriving DecidableEq

def payloadEnd (cap used L n : Nat) : PayloadEnd :=
  if cap ≤ used then .refused else if cap ≤ used + L + 2 * (n - 1) then .panics else .stored

/-- Storage in which byte `i` of `v` has been written at place `p + 2 * i`. -/
def spread (p : Nat) (v storage : Bytes) : Bytes :=
  (List.range storage.length).map fun j =>
    if p ≤ j ∧ (j - p) % 2 = 0 ∧ (j - p) / 2 < v.length then v.getD ((j - p) / 2) 0#8 else storage.getD j 0#8

end Verif.Spec

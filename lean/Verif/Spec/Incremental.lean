import Verif.Spec.Checksum

/-!
# RFC 1624: updating an Internet checksum for words that changed

Routers and address translators do not sum a packet again: they patch its checksum for the 16-bit words they changed.
-/

namespace Verif.Spec
open Verif

/-- RFC 1624, equation 3: the checksum `hc` after a word changed from `m` to `m'` is `~(~hc + ~m + m')`, in ones'
complement arithmetic. -/
def rfc1624 (hc m m' : Nat) : Nat := 65535 - ocAdd (ocAdd (65535 - hc) (65535 - m)) m'

/-- The words in which two messages differ, old and new. -/
def changed (old new : List Nat) : List (Nat × Nat) := (old.zip new).filter fun p => p.1 ≠ p.2

/-- One update after the other. -/
def patched (hc : Nat) (changes : List (Nat × Nat)) : Nat := changes.foldl (fun c p => rfc1624 c p.1 p.2) hc

/-- The example of RFC 1624: a checksum of 0xdd2f, a word changing from 0x5555 to 0x3285, gives 0. -/
example : rfc1624 0xdd2f 0x5555 0x3285 = 0 := by decide

end Verif.Spec

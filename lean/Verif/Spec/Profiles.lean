import Verif.Model.Buffer

/-!
# Debug and release builds

Cargo's `dev` profile checks arithmetic for overflow and panics, the `release` profile wraps around.  The crate has no
`debug_assert!` and no `cfg(debug_assertions)`; this is the only difference.
-/

namespace Verif.Spec
open Verif

/-- `cargo build`, with a standard library whose `Cursor` does or does not advance at the end of its input,
for a 32-bit (`narrow`) or a 64-bit target. -/
def debugBuild (eofAdvances narrow : Bool) : Cfg := ⟨true, eofAdvances, narrow⟩
/-- `cargo build --release`. -/
def releaseBuild (eofAdvances narrow : Bool) : Cfg := ⟨false, eofAdvances, narrow⟩

/-- The first computation panics, or both end the same way, with the same value or the same error. -/
def SameUnlessPanic {α : Type} (debug release : Outcome α) : Prop := debug = .panic ∨ release = debug

/-- The same for a call that changes something: from every state the first panics, or both end the same way and leave
the same state behind. -/
def SameUnlessPanicMut {σ α : Type} (debug release : Mut σ α) : Prop :=
  ∀ s, (debug s).1 = .panic ∨ release s = debug s

/-- `strict` panics on every overflow, and `other` is a build, in either profile, with the same standard library for a
target that is as wide or wider. -/
structure Stricter (strict other : Cfg) : Prop where
  checks : strict.overflowChecks = true
  eof : other.eofAdvances = strict.eofAdvances
  wide : other.narrow = true → strict.narrow = true

/-- A buffer (`buffer::Dynamic`, `buffer::Slice` or one of the user's own) whose operations agree in this sense.  What is
done to its bytes through `data_mut()` may differ between the builds too. -/
class SameBuffer (B : Type) [Buffer B] : Prop where
  next : ∀ {d r : Cfg}, Stricter d r → ∀ n, SameUnlessPanicMut (Buffer.next (B := B) d n) (Buffer.next r n)
  more : ∀ {d r : Cfg}, Stricter d r → ∀ n, SameUnlessPanicMut (Buffer.more (B := B) d n) (Buffer.more r n)
  data : ∀ {d r : Cfg}, Stricter d r → ∀ b : B, SameUnlessPanic (Buffer.data d b) (Buffer.data r b)
  edit : ∀ {α : Type} {d r : Cfg}, Stricter d r → ∀ f g : Mut Bytes α, SameUnlessPanicMut f g →
    SameUnlessPanicMut (Buffer.modifyData (B := B) d f) (Buffer.modifyData r g)

end Verif.Spec

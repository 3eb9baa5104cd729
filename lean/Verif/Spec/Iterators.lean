import Verif.Model.Iterators
import Verif.Spec.AnyBuffer

/-!
# What is said about iterators

An iterator here is the list of its answers; nothing is assumed about it.
-/

namespace Verif.Spec
open Verif

/-- The first answers of the iterator are the bytes `v`. -/
def Gives (src : Source) (v : Bytes) : Prop := ∀ j (h : j < v.length), src j = .byte v[j]

/-- The iterator gives the bytes of `v` and then says `None`, as the iterator over a `Vec<u8>` or a slice does. -/
def Lists (src : Source) (v : Bytes) : Prop := Gives src v ∧ src v.length = .done

/-- The iterator gives the bytes of `v` and panics when it is asked for more. -/
def Breaks (src : Source) (v : Bytes) : Prop := Gives src v ∧ src v.length = .panics

/-- The iterator never stops giving bytes. -/
def Endless (src : Source) : Prop := ∀ j, ∃ v, src j = .byte v

/-- `payload` with this iterator comes to an end, after `asked` calls of `Iterator::next`, with the outcome `r`. -/
def Ends {B : Type} [Buffer B] (cfg : Cfg) (src : Source) (s : PayloadBuilder B) (asked : Nat)
    (r : Outcome (PayloadBuilder B)) : Prop :=
  ∃ rounds, s.payloadFrom cfg src rounds = some (asked, r)

end Verif.Spec

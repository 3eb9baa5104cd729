import Verif.Rust

/-!
# Specification of `trait Buffer`: a stack of layers

`src/buffer/mod.rs:17-72` documents a buffer as nested layers: `next` opens a new zeroed layer behind the
current one, `more` extends the current layer by zeroed bytes, `data` is the current layer, `offset` where
it starts, `length` how long it is, `used` how much has been handed out, `into_inner` all of it.
Nothing here refers to the two implementations.
-/

namespace Verif.Spec

/-- The layers below the current one (outermost first) and the current one. -/
structure Layers where
  below : List Bytes
  top : Bytes

namespace Layers

/-- A fresh or cleared buffer. -/
def empty : Layers := ⟨[], []⟩

/-- All bytes below the current layer. -/
def pre (l : Layers) : Bytes := l.below.flatten

/-- Everything that has been handed out. -/
def all (l : Layers) : Bytes := l.below.flatten ++ l.top

end Layers

/-- What a user can do to a buffer.  `edit f` is any in-place change of `data_mut()`: a `&mut [u8]` can be
rewritten at will but not resized. -/
inductive BufOp where
  | next (size : Nat)
  | more (size : Nat)
  | clear
  | edit (f : Bytes → Bytes) (h : ∀ d, (f d).length = d.length)

/-- What the operation means for the stack of layers. -/
def BufOp.step : BufOp → Layers → Layers
  | .next n, l => ⟨l.below ++ [l.top], List.replicate n 0#8⟩
  | .more n, l => ⟨l.below, l.top ++ List.replicate n 0#8⟩
  | .clear, _ => .empty
  | .edit f _, l => ⟨l.below, f l.top⟩

/-- The stack after a history. -/
def BufOp.after (ops : List BufOp) (l : Layers) : Layers := ops.foldl (fun l op => op.step l) l

/-- Throughout the history the total stays within `cap` bytes. -/
def BufOp.Fits (cap : Nat) : List BufOp → Layers → Prop
  | [], l => l.all.length ≤ cap
  | op :: ops, l => l.all.length ≤ cap ∧ BufOp.Fits cap ops (op.step l)

/-- Every `more` in the history happens while the current layer is still empty. -/
def BufOp.MoreOnEmpty : List BufOp → Layers → Prop
  | [], _ => True
  | op :: ops, l => (∀ n, op = .more n → l.top = []) ∧ BufOp.MoreOnEmpty ops (op.step l)

end Verif.Spec

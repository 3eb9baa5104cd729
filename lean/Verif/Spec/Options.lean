import Verif.Rust

/-!
# Specification vocabulary: option lists on the wire (RFC 791 section 3.1, RFC 793 section 3.1)

Nothing in this file refers to the model.
-/

namespace Verif.Spec

/-- An option as it is sent: the single byte NoOperation (1), or kind, length, data. -/
inductive WireOption where
  | nop
  | tlv (kind : U8) (data : Bytes)

/-- The bytes of an option. The length byte counts kind, length and data. -/
def WireOption.encode : WireOption → Bytes
  | .nop => [1#8]
  | .tlv kind data => kind :: BitVec.ofNat 8 (data.length + 2) :: data

/-- The bytes of a list of options. -/
def encodeOptions (opts : List WireOption) : Bytes := (opts.map WireOption.encode).flatten

/-- What may follow the last option: nothing, or an End-of-list byte (0) and padding. -/
def IsOptionTail (t : Bytes) : Prop := t = [] ∨ ∃ pad, t = 0#8 :: pad

/-- A TCP option that has a wire form: the length fits its byte, and the kind is neither End nor
NoOperation, which have no length byte. -/
def WireOption.LegalTcp : WireOption → Prop
  | .nop => True
  | .tlv kind data => kind ≠ 0#8 ∧ kind ≠ 1#8 ∧ data.length + 2 < 256

/-- The same for IPv4, where the option number is the low five bits of the first byte. -/
def WireOption.LegalV4 : WireOption → Prop
  | .nop => True
  | .tlv kind data => kind.toNat % 32 ≠ 0 ∧ kind.toNat % 32 ≠ 1 ∧ data.length + 2 < 256

/-- The first byte, the length byte (1 for NoOperation) and the data of an option. -/
def WireOption.kind : WireOption → U8
  | .nop => 1#8
  | .tlv k _ => k
/-- Number of bytes of the option. -/
def WireOption.size (o : WireOption) : Nat := o.encode.length
/-- Data of the option. -/
def WireOption.data : WireOption → Bytes
  | .nop => []
  | .tlv _ d => d

end Verif.Spec

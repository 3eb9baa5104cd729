import Verif.Spec.Bits

/-!
# Packets quoted in ICMP error messages (RFC 792)

Independent of the model: only byte sequences are mentioned.
-/

namespace Verif.Spec
open Verif

/-- `h` is the eight bytes in front of the quote of an RFC 792 error message: destination unreachable (3),
source quench (4), redirect (5), time exceeded (11) or parameter problem (12); code, checksum and the second
word are anything. -/
def ErrorHeader (h : Bytes) : Prop := h.length = 8 ∧ field h 0 8 ∈ [3, 4, 5, 11, 12]

/-- `q` is what a router may quote of the packet `p` it received: at least the header of 20 bytes and eight
more (RFC 792), possibly all of it and bytes behind it (RFC 1812 lets it quote more), as the packet came by:
the routers before it may have changed the type of service (byte 1), the time to live (byte 8) and the header
checksum (bytes 10 and 11) and nothing else. -/
def QuoteOf (p q : Bytes) : Prop :=
  28 ≤ q.length ∧ ∀ i, i < p.length → i < q.length → i ∉ [1, 8, 10, 11] → q[i]? = p[i]?

end Verif.Spec

import Verif.Spec.Dissect

/-!
# Specification: resets

RFC 793, page 36, "Reset Generation", 1: a segment that comes in while no connection exists.
-/

namespace Verif.Spec

/-- Sequence number, acknowledgment number and control bits of the reset for a segment with these numbers, control bits
and so many bytes of data; no reset for a reset.  FIN, SYN, RST and ACK are bits 0, 1, 2 and 4. -/
def resetFor (seq ack flags len : Nat) : Option (Nat × Nat × Nat) :=
  if flags / 4 % 2 = 1 then none
  else if flags / 16 % 2 = 1 then some (ack, 0, 4)
  else some (0, (seq + len + flags / 2 % 2 + flags % 2) % 2 ^ 32, 4 + 16)

end Verif.Spec

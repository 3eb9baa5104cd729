/-!
# The control bits of TCP and IPv4 as the RFCs number them
-/

namespace Verif.Spec

/-- The control bits of a TCP header: RFC 793 section 3.1, RFC 3168 section 6.1 (CWR, ECE), RFC 3540 section 9 (NS). -/
inductive TcpFlag where
  | ns | cwr | ece | urg | ack | psh | rst | syn | fin
  deriving DecidableEq

/-- Where the bit is in the header, counted from the most significant bit of the first byte. -/
def TcpFlag.bit : TcpFlag → Nat
  | .ns => 103 | .cwr => 104 | .ece => 105 | .urg => 106 | .ack => 107 | .psh => 108 | .rst => 109 | .syn => 110 | .fin => 111

/-- The control flags of an IPv4 header (RFC 791 section 3.1). -/
inductive V4Flag where
  | df | mf
  deriving DecidableEq

end Verif.Spec

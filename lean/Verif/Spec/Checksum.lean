import Verif.Rust

/-!
# Specification: the Internet checksum (RFC 1071)

Written from the RFC, without reference to the model.
-/

namespace Verif.Spec

/-- The 16-bit big-endian words of a message; an odd last byte is padded with a zero byte. -/
def words : Bytes → List Nat
  | a :: b :: rest => (a.toNat * 256 + b.toNat) :: words rest
  | [a] => [a.toNat * 256]
  | [] => []

/-- One's complement addition of two 16-bit numbers: a carry out of bit 15 is added back in. -/
def ocAdd (x y : Nat) : Nat := if x + y < 65536 then x + y else x + y - 65535

/-- One's complement sum of a list of 16-bit words. -/
def ocSum (ws : List Nat) : Nat := ws.foldl ocAdd 0

/-- The Internet checksum: the complement of the one's complement sum. -/
def inetChecksum (m : Bytes) : U16 := BitVec.ofNat 16 (65535 - ocSum (words m))

/-- A receiver's check: the one's complement sum over everything, checksum included, is all ones. -/
def verifies (m : Bytes) : Prop := ocSum (words m) = 65535

/-- A message with the two bytes at `off` (the checksum field) counted as zero. -/
def zeroed (m : Bytes) (off : Nat) : Bytes := m.take off ++ [0#8, 0#8] ++ m.drop (off + 2)

/-- The RFC 768 / RFC 793 pseudo header: source, destination, zero, protocol number, length. -/
def pseudoHeader (src dst : List U8) (proto : U8) (len : Nat) : Bytes :=
  src ++ dst ++ [0#8, proto, BitVec.ofNat 8 (len / 256), BitVec.ofNat 8 len]

/-- The RFC 768 sum before the zero rule: pseudo header, then the datagram with its checksum zeroed. -/
def udpMessage (ip b : Bytes) : Bytes :=
  pseudoHeader ((ip.drop 12).take 4) ((ip.drop 16).take 4) 17#8 b.length ++ zeroed b 6

/-- RFC 768: "If the computed checksum is zero, it is transmitted as all ones." -/
def udpChecksum (ip b : Bytes) : U16 :=
  if inetChecksum (udpMessage ip b) = 0#16 then 0xffff#16 else inetChecksum (udpMessage ip b)

/-- RFC 793: pseudo header, then the segment with its checksum zeroed. -/
def tcpMessage (ip b : Bytes) : Bytes :=
  pseudoHeader ((ip.drop 12).take 4) ((ip.drop 16).take 4) 6#8 b.length ++ zeroed b 16

end Verif.Spec

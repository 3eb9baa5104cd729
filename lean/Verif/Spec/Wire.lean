import Verif.Spec.Checksum

/-!
# Specification: wire formats

Byte layouts written from IEEE 802.3, RFC 791, RFC 768, RFC 793 and RFC 792.  Numbers go out in network
byte order (`be16`, `be32`: `u16::to_be_bytes`, `u32::to_be_bytes`).
-/

namespace Verif.Spec

/-- An Ethernet II frame. -/
def ethernetFrame (dst src : Bytes) (type : U16) (payload : Bytes) : Bytes :=
  dst ++ src ++ be16 type ++ payload

/-- The fields of an IPv4 header without options that a sender chooses. `fragment` is the 16-bit word with
the flags and the fragment offset. -/
structure Ipv4Fields where
  tos : U8
  id : U16
  fragment : U16
  ttl : U8
  protocol : U8
  src : Bytes
  dst : Bytes

/-- An IPv4 header without options (version 4, IHL 5). -/
def ipv4Header (f : Ipv4Fields) (total checksum : U16) : Bytes :=
  [0x45#8, f.tos] ++ be16 total ++ be16 f.id ++ be16 f.fragment ++ [f.ttl, f.protocol] ++
    be16 checksum ++ f.src ++ f.dst

/-- A UDP header. -/
def udpHeader (sport dport length checksum : U16) : Bytes :=
  be16 sport ++ be16 dport ++ be16 length ++ be16 checksum

/-- The fields of a TCP header without options. -/
structure TcpFields where
  sport : U16
  dport : U16
  seq : U32
  ack : U32
  window : U16
  pointer : U16

/-- A TCP header; `word` is the 16-bit word with data offset, reserved bits and flags. -/
def tcpHeader (f : TcpFields) (word checksum : U16) : Bytes :=
  be16 f.sport ++ be16 f.dport ++ be32 f.seq ++ be32 f.ack ++ be16 word ++ be16 f.window ++
    be16 checksum ++ be16 f.pointer

/-- The first eight bytes of an ICMP echo or information message. -/
def icmpEchoHeader (type : U8) (checksum id seq : U16) : Bytes :=
  [type, 0#8] ++ be16 checksum ++ be16 id ++ be16 seq

/-- An ICMP timestamp message. -/
def icmpTimestamp (type : U8) (checksum id seq : U16) (originate receive transmit : U32) : Bytes :=
  [type, 0#8] ++ be16 checksum ++ be16 id ++ be16 seq ++ be32 originate ++ be32 receive ++ be32 transmit

end Verif.Spec

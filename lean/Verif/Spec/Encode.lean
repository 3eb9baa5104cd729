import Verif.Spec.Wire

/-!
# Specification: whole packets

The bytes that the RFCs prescribe for a packet with given fields, checksums and lengths included.
-/

namespace Verif.Spec

/-- RFC 791: an IPv4 packet without options. -/
def ipv4Packet (f : Ipv4Fields) (body : Bytes) : Bytes :=
  ipv4Header f (BitVec.ofNat 16 (20 + body.length))
      (inetChecksum (ipv4Header f (BitVec.ofNat 16 (20 + body.length)) 0)) ++ body

/-- RFC 768: the sum over pseudo header, header with zero checksum, and data. -/
def udpSum (src dst : Bytes) (sport dport : U16) (data : Bytes) : U16 :=
  inetChecksum (pseudoHeader src dst 17 (8 + data.length) ++
    (udpHeader sport dport (BitVec.ofNat 16 (8 + data.length)) 0 ++ data))

/-- RFC 768: a UDP datagram; a checksum that comes out as zero is sent as all ones. -/
def udpDatagram (src dst : Bytes) (sport dport : U16) (data : Bytes) : Bytes :=
  udpHeader sport dport (BitVec.ofNat 16 (8 + data.length))
      (if udpSum src dst sport dport data = 0 then 0xffff else udpSum src dst sport dport data) ++ data

/-- RFC 793: a TCP segment without options; the data offset is 5. -/
def tcpSegment (src dst : Bytes) (f : TcpFields) (flags : U16) (data : Bytes) : Bytes :=
  tcpHeader f (0x5000 ||| flags) (inetChecksum (pseudoHeader src dst 6 (20 + data.length) ++
      (tcpHeader f (0x5000 ||| flags) 0 ++ data))) ++ data

/-- RFC 792: an echo (8), echo reply (0), information request (15) or information reply (16) message. -/
def icmpEcho (type : U8) (id seq : U16) (data : Bytes) : Bytes :=
  icmpEchoHeader type (inetChecksum (icmpEchoHeader type 0 id seq ++ data)) id seq ++ data

/-- RFC 792: a timestamp (13) or timestamp reply (14) message. -/
def icmpTimestampMessage (type : U8) (id seq : U16) (originate receive transmit : U32) : Bytes :=
  icmpTimestamp type (inetChecksum (icmpTimestamp type 0 id seq originate receive transmit)) id seq originate receive
    transmit

end Verif.Spec

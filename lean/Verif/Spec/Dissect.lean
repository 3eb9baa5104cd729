import Verif.Spec.Bits
import Verif.Spec.Checksum

/-!
# Specification: what a dissector shows

What is to be read in a frame of bytes, written from IEEE 802.3 and RFC 791, 768, 793 and 792 with bit positions, and
without reference to the model.  The three places where the code computes another checksum than the RFCs do (C60,
C65) are in `crateSum`, `udpGood` and `tcpReading`.
-/

namespace Verif.Spec

/-- The packet quoted in an ICMP error. -/
inductive Quote where
  | refused (e : Error)
  | packet (src dst : Bytes) (proto : Nat) (data : Bytes)
  deriving DecidableEq, Repr

/-- What is inside an IPv4 packet. -/
inductive Message where
  | refused (e : Error)
  | udp (sport dport length : Nat) (good : Bool) (data : Bytes)
  | tcp (sport dport seq ack flags window pointer : Nat) (good : Bool) (data : Bytes)
  | echo (request good : Bool) (id seq : Nat) (data : Bytes)
  | timestamp (request good : Bool) (id seq originate receive transmit : Nat)
  | error (kind code : Nat) (good : Bool) (quote : Quote)
  | icmp (kind code : Nat) (good : Bool) (data : Bytes)
  | other (data : Bytes)
  deriving DecidableEq, Repr

/-- The fields of an IPv4 header. -/
structure IpShown where
  src : Bytes
  dst : Bytes
  dscp : Nat
  ecn : Nat
  id : Nat
  offset : Nat
  ttl : Nat
  proto : Nat
  good : Bool
  deriving DecidableEq, Repr

/-- What is inside a frame. -/
inductive Content where
  | other (data : Bytes)
  | refused (e : Error)
  | ip (shown : IpShown) (message : Message)
  deriving DecidableEq, Repr

inductive Reading where
  | refused (e : Error)
  | frame (dst src : Bytes) (type : Nat) (content : Content)
  deriving DecidableEq, Repr

/-- The checksum of an IPv4 header or an ICMP message `m` with the checksum at byte `off`: the Internet checksum of the
16-bit words (an odd last byte does not count), but zero if they are all zero. -/
def crateSum (m : Bytes) (off : Nat) : Nat :=
  let e := zeroed (m.take (m.length / 2 * 2)) off
  if ∀ w ∈ words e, w = 0 then 0 else (inetChecksum e).toNat

/-- Bytes that are an IPv4 packet: at least 20 of them, version 4, header and total length inside. -/
def ipError (p : Bytes) : Option Error :=
  if p.length < 20 then some .smallBuffer
  else if field p 0 4 ≠ 4 then some .invalidPacket
  else if p.length < 4 * field p 4 4 ∨ p.length < field p 16 16 then some .smallBuffer
  else none

/-- What is behind the header of an IPv4 packet. -/
def ipData (p : Bytes) : Bytes := (p.drop (4 * field p 4 4)).take (field p 16 16 - 4 * field p 4 4)

def quoteReading (p : Bytes) : Quote :=
  match ipError p with
  | some e => .refused e
  | none => .packet ((p.drop 12).take 4) ((p.drop 16).take 4) (field p 72 8) (ipData p)

/-- RFC 768; with `eof`, a last odd byte counts as zero. -/
def udpGood (eof : Bool) (src dst u : Bytes) : Bool :=
  let m := if eof = true ∧ u.length % 2 = 1 then u.take (u.length - 1) ++ [0#8] else u
  field u 48 16 = (inetChecksum (pseudoHeader src dst 17#8 u.length ++ zeroed m 6)).toNat

def udpReading (eof : Bool) (src dst u : Bytes) : Message :=
  if 8 ≤ u.length ∧ field u 32 16 ≤ u.length then
    .udp (field u 0 16) (field u 16 16) (field u 32 16) (udpGood eof src dst u) ((u.drop 8).take (field u 32 16 - 8))
  else .refused .smallBuffer

def tcpGood (src dst t : Bytes) : Bool :=
  field t 128 16 = (inetChecksum (pseudoHeader src dst 6#8 t.length ++ zeroed t 16)).toNat

/-- RFC 793; with `eof`, verifying a segment of odd length panics. -/
def tcpReading (eof : Bool) (src dst t : Bytes) : Outcome Message :=
  if 20 ≤ t.length ∧ field t 96 4 * 4 ≤ t.length then
    if eof = true ∧ t.length % 2 = 1 then .panic
    else .ok (.tcp (field t 0 16) (field t 16 16) (field t 32 32) (field t 64 32) (field t 103 9) (field t 112 16)
      (field t 144 16) (tcpGood src dst t) (t.drop (field t 96 4 * 4)))
  else .ok (.refused .smallBuffer)

def icmpReading (m : Bytes) : Message :=
  if m.length < 4 then .refused .smallBuffer
  else
    let good : Bool := field m 16 16 = crateSum m 2
    if 8 ≤ m.length ∧ field m 0 8 ∈ [8, 0] then
      .echo (field m 0 8 = 8) good (field m 32 16) (field m 48 16) (m.drop 8)
    else if 20 ≤ m.length ∧ field m 0 8 ∈ [13, 14] then
      .timestamp (field m 0 8 = 13) good (field m 32 16) (field m 48 16) (field m 64 32) (field m 96 32) (field m 128 32)
    else if 8 ≤ m.length ∧ field m 0 8 ∈ [3, 4, 5, 11, 12] then
      .error (field m 0 8) (field m 8 8) good (quoteReading (m.drop 8))
    else .icmp (field m 0 8) (field m 8 8) good (m.drop 4)

def ipShown (p : Bytes) : IpShown where
  src := (p.drop 12).take 4
  dst := (p.drop 16).take 4
  dscp := field p 8 6
  ecn := field p 14 2
  id := field p 32 16
  offset := field p 51 13
  ttl := field p 64 8
  proto := field p 72 8
  good := field p 80 16 = crateSum (p.take (4 * field p 4 4)) 10

/-- By the protocol number: 17 is UDP, 6 TCP, 1 ICMP. -/
def messageReading (eof : Bool) (p : Bytes) : Outcome Message :=
  if field p 72 8 = 17 then .ok (udpReading eof ((p.drop 12).take 4) ((p.drop 16).take 4) (ipData p))
  else if field p 72 8 = 6 then tcpReading eof ((p.drop 12).take 4) ((p.drop 16).take 4) (ipData p)
  else if field p 72 8 = 1 then .ok (icmpReading (ipData p))
  else .ok (.other (ipData p))

def contentReading (eof : Bool) (type : Nat) (p : Bytes) : Outcome Content :=
  if type = 0x0800 then
    match ipError p with
    | some e => .ok (.refused e)
    | none => do
      let m ← messageReading eof p
      .ok (.ip (ipShown p) m)
  else .ok (.other p)

/-- All that is to be read in a frame. -/
def reading (eof : Bool) (b : Bytes) : Outcome Reading :=
  if b.length < 14 then .ok (.refused .smallBuffer)
  else do
    let c ← contentReading eof (field b 96 16) (b.drop 14)
    .ok (.frame (b.take 6) ((b.drop 6).take 6) (field b 96 16) c)

end Verif.Spec

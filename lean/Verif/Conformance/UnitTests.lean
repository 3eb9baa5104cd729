import Verif.Model.Programs
import Verif.Model.Kinds

/-!
# The project's own unit tests, run on the model

Every `#[test]` and every doc test of /repo, transcribed call by call and evaluated on the model by the
kernel, for debug and release builds.  These are tests of the model, not properties of the program: where
the project pins the behaviour of a function to a value, the model gives the same value.

`unwrap()` of the tests is the `do` of `Outcome`: an error or a panic anywhere would make the whole
example something else than `.ok`.
-/

namespace Verif.Conformance
open Verif

set_option synthInstance.maxSize 1024
set_option synthInstance.maxHeartbeats 200000

/-- `src/tcp/packet.rs:390`. -/
def tcpRaw : Bytes :=
  [0x45, 0x00, 0x00, 0x3c, 0xc8, 0xa5, 0x40, 0x00, 0x40, 0x06, 0x9f, 0xd5, 0xc0, 0xa8, 0x01, 0x89, 0x08, 0x08, 0x08,
   0x08, 0x9b, 0x8a, 0x00, 0x50, 0xde, 0x67, 0xc7, 0x4a, 0x00, 0x00, 0x00, 0x00, 0xa0, 0x02, 0x72, 0x10, 0x3f, 0x5f,
   0x00, 0x00, 0x02, 0x04, 0x05, 0xb4, 0x04, 0x02, 0x08, 0x0a, 0x59, 0x2b, 0x29, 0x97, 0x00, 0x00, 0x00, 0x00, 0x01,
   0x03, 0x03, 0x07]

/-- `src/tcp/mod.rs:112-122`. -/
def oddRaw : Bytes :=
  [0x45, 0x00, 0x00, 0x7d, 0xf5, 0x31, 0x40, 0x00, 0x40, 0x06, 0x31, 0x47, 0x0a, 0x00, 0x00, 0x01, 0x0a, 0x00, 0x00,
   0x02, 0x92, 0xae, 0x04, 0xd2, 0x2c, 0x2e, 0x5f, 0xf4, 0x5a, 0xd2, 0xd5, 0xb0, 0x80, 0x18, 0x01, 0xf6, 0x91, 0x41,
   0x00, 0x00, 0x01, 0x01, 0x08, 0x0a, 0x8c, 0xa6, 0xbf, 0xb9, 0xdd, 0xc2, 0xa2, 0xc7, 0x47, 0x45, 0x54, 0x20, 0x2f,
   0x20, 0x48, 0x54, 0x54, 0x50, 0x2f, 0x31, 0x2e, 0x31, 0x0d, 0x0a, 0x48, 0x6f, 0x73, 0x74, 0x3a, 0x20, 0x67, 0x6f,
   0x6f, 0x64, 0x3a, 0x31, 0x32, 0x33, 0x34, 0x0d, 0x0a, 0x55, 0x73, 0x65, 0x72, 0x2d, 0x41, 0x67, 0x65, 0x6e, 0x74,
   0x3a, 0x20, 0x63, 0x75, 0x72, 0x6c, 0x2f, 0x37, 0x2e, 0x38, 0x35, 0x2e, 0x30, 0x0d, 0x0a, 0x41, 0x63, 0x63, 0x65,
   0x70, 0x74, 0x3a, 0x20, 0x2a, 0x2f, 0x2a, 0x0d, 0x0a, 0x0d, 0x0a]

/-- `src/ip/v4/packet.rs:488`. -/
def v4Raw : Bytes :=
  [0x45, 0x00, 0x00, 0x34, 0x2d, 0x87, 0x00, 0x00, 0x2c, 0x06, 0x5c, 0x74, 0x42, 0x66, 0x01, 0x6c, 0xc0, 0xa8, 0x00,
   0x4f]

/-- `src/udp/packet.rs:280`. -/
def udpRaw : Bytes :=
  [0x45, 0x00, 0x00, 0x42, 0x47, 0x07, 0x40, 0x00, 0x40, 0x11, 0x6e, 0xcc, 0xc0, 0xa8, 0x01, 0x89, 0xc0, 0xa8, 0x01,
   0xfe, 0xba, 0x2f, 0x00, 0x35, 0x00, 0x2e, 0x1d, 0xf8, 0xbc, 0x81, 0x01, 0x00, 0x00, 0x01, 0x00, 0x00, 0x00, 0x00,
   0x00, 0x00, 0x03, 0x61, 0x70, 0x69, 0x0c, 0x73, 0x74, 0x65, 0x61, 0x6d, 0x70, 0x6f, 0x77, 0x65, 0x72, 0x65, 0x64,
   0x03, 0x63, 0x6f, 0x6d, 0x00, 0x00, 0x1c, 0x00, 0x01]

/-- `src/udp/mod.rs:102-112`. -/
def dnsRaw : Bytes :=
  [0x45, 0x00, 0x00, 0x44, 0xad, 0x0b, 0x00, 0x00, 0x40, 0x11, 0x72, 0x72, 0xac, 0x14, 0x02, 0xfd, 0xac, 0x14, 0x00,
   0x06, 0xe5, 0x87, 0x00, 0x35, 0x00, 0x30, 0xe3, 0x20, 0xab, 0xc9, 0x01, 0x00, 0x00, 0x01, 0x00, 0x00, 0x00, 0x00,
   0x00, 0x00, 0x09, 0x6d, 0x63, 0x63, 0x6c, 0x65, 0x6c, 0x6c, 0x61, 0x6e, 0x02, 0x63, 0x73, 0x05, 0x6d, 0x69, 0x61,
   0x6d, 0x69, 0x03, 0x65, 0x64, 0x75, 0x00, 0x00, 0x01, 0x00, 0x01]

/-- `src/ether/packet.rs:176`. -/
def frameRaw : Bytes :=
  [0x00, 0x23, 0x69, 0x63, 0x59, 0xbe, 0xe4, 0xb3, 0x18, 0x26, 0x63, 0xa3, 0x08, 0x00, 0x45, 0x00, 0x00, 0x42, 0x47,
   0x07, 0x40, 0x00, 0x40, 0x11, 0x6e, 0xcc, 0xc0, 0xa8, 0x01, 0x89, 0xc0, 0xa8, 0x01, 0xfe, 0xba, 0x2f, 0x00, 0x35,
   0x00, 0x2e, 0x1d, 0xf8, 0xbc, 0x81, 0x01, 0x00, 0x00, 0x01, 0x00, 0x00, 0x00, 0x00, 0x00, 0x00, 0x03, 0x61, 0x70,
   0x69, 0x0c, 0x73, 0x74, 0x65, 0x61, 0x6d, 0x70, 0x6f, 0x77, 0x65, 0x72, 0x65, 0x64, 0x03, 0x63, 0x6f, 0x6d, 0x00,
   0x00, 0x1c, 0x00, 0x01]

/-- A dotted-quad address. -/
def addr (a b c d : U8) : Ipv4Addr := ⟨a, b, c, d⟩

/-! ## `src/tcp/packet.rs:388-437` -/

/-- `values`. -/
example (cfg : Cfg) : (do
    let ip ← V4.new tcpRaw
    let tcp ← V4.payload ip
    let tcp ← Tcp.new tcp
    let a ← V4.isValid cfg ip
    let b ← Tcp.isValid cfg (.v4 ip) tcp
    let f ← Tcp.flags tcp
    let d ← Tcp.destination tcp
    .ok (a, b, f, d)) = .ok (true, true, TcpFlags.syn, 80#16) := by
  obtain ⟨oc, ea, nw⟩ := cfg
  cases oc <;> cases ea <;> cases nw <;> decide +kernel

/-- `mutable`: the two halves of `split_mut` as two values. -/
def tcpMutable (cfg : Cfg) : Outcome (Bool × U16 × U16 × Bool × Bool) := do
  let ip ← V4.new tcpRaw
  let (ip, tcp) ← V4.split ip
  let tcp ← Tcp.new tcp
  ((do
    let a ← Mut.read (Tcp.isValid cfg (.v4 ip))
    let b ← Mut.read Tcp.destination
    (Tcp.setDestination 9001).unwrap
    let c ← Mut.read Tcp.destination
    let d ← Mut.read (Tcp.isValid cfg (.v4 ip))
    (Tcp.updateChecksum cfg (.v4 ip)).unwrap
    let e ← Mut.read (Tcp.isValid cfg (.v4 ip))
    pure (a, b, c, d, e) : Mut Bytes _) tcp).1

example (cfg : Cfg) : tcpMutable cfg = .ok (true, 80, 9001, false, true) := by
  obtain ⟨oc, ea, nw⟩ := cfg
  cases oc <;> cases ea <;> cases nw <;> decide +kernel

/-- `mutable_checked`. -/
def tcpMutableChecked (cfg : Cfg) : Outcome (Bool × U16 × U16 × Bool) := do
  let ip ← V4.new tcpRaw
  let (ip, tcp) ← V4.split ip
  let tcp ← Tcp.new tcp
  ((do
    let a ← Mut.read (Tcp.isValid cfg (.v4 ip))
    let b ← Mut.read Tcp.destination
    Tcp.checkedRun cfg (.v4 ip) [.destination 9001]
    let c ← Mut.read Tcp.destination
    let e ← Mut.read (Tcp.isValid cfg (.v4 ip))
    pure (a, b, c, e) : Mut Bytes _) tcp).1

example (cfg : Cfg) : tcpMutableChecked cfg = .ok (true, 80, 9001, true) := by
  obtain ⟨oc, ea, nw⟩ := cfg
  cases oc <;> cases ea <;> cases nw <;> decide +kernel

/-! ## `src/tcp/builder.rs:189-222` -/

/-- The calls on the IPv4 builder that four of the tests share. -/
def v4Calls : List V4Op :=
  [.id 0x2d87, .ttl 64, .source (addr 66 102 1 108), .destination (addr 192 168 0 79)]

/-- `simple`: an odd segment, so the test runs where `read_exact` leaves the cursor alone (C60). -/
def tcpSimple (cfg : Cfg) : Outcome ((U16 × Bool × U16 × U8) × (IpProtocol × Ipv4Addr × Ipv4Addr × Bool) ×
    (U16 × U16 × TcpFlags × Bool)) := do
  let packet ← ipv4Program cfg Dynamic.new v4Calls
    (.tcp [.source 1337, .destination 9001, .flags TcpFlags.syn, .payload [0x6c, 0x6f, 0x6c]])
  let ip ← V4.new packet
  let id ← V4.id ip
  let fl ← V4.flags ip
  let len ← V4.length ip
  let ttl ← V4.ttl ip
  let proto ← V4.protocol ip
  let src ← V4.source ip
  let dst ← V4.destination ip
  let v ← V4.isValid cfg ip
  let tcp ← V4.payload ip
  let tcp ← Tcp.new tcp
  let tsrc ← Tcp.source tcp
  let tdst ← Tcp.destination tcp
  let tfl ← Tcp.flags tcp
  let tv ← Tcp.isValid cfg (.v4 ip) tcp
  .ok ((id, fl.bits == 0#16, len, ttl), (proto, src, dst, v), (tsrc, tdst, tfl, tv))

example (oc nw : Bool) : tcpSimple ⟨oc, false, nw⟩ =
    .ok ((0x2d87, true, 43, 64), (.tcp, addr 66 102 1 108, addr 192 168 0 79, true),
      (1337, 9001, TcpFlags.syn, true)) := by
  cases oc <;> cases nw <;> decide +kernel

/-! ## `src/tcp/mod.rs:107-148` -/

/-- `test_tcp_checksum_on_odd_length`: the checksum recomputed against a header built for the purpose is the
one on the wire. -/
def tcpOdd (cfg : Cfg) : Outcome (Bool × Bool) := do
  let src ← V4.source oddRaw
  let dst ← V4.destination oddRaw
  let tcp ← V4.payload oddRaw
  let orig ← Tcp.checksum tcp
  let fake ← ipv4Program cfg Dynamic.new [.source src, .destination dst] .plain
  let fake ← IpPacket.unchecked fake
  let now ← ((do
    (Tcp.updateChecksum cfg fake).unwrap
    Mut.read Tcp.checksum : Mut Bytes _) tcp).1
  .ok (tcp.length % 2 ≠ 0, orig = now)

example (oc nw : Bool) : tcpOdd ⟨oc, false, nw⟩ = .ok (true, true) := by
  cases oc <;> cases nw <;> decide +kernel

/-- Where a failing `read_exact` moves the cursor to the end the test panics (C60). -/
example (oc nw : Bool) : tcpOdd ⟨oc, true, nw⟩ = .panic := by
  cases oc <;> cases nw <;> decide +kernel

/-! ## `src/ip/v4/packet.rs:479-537` -/

/-- `short_packet`. -/
example : V4.noPayload (List.replicate 10 64) = .err .smallBuffer ∧
    V4.noPayload (List.replicate 19 64) = .err .smallBuffer ∧
    V4.noPayload (List.replicate 20 64) = .ok (List.replicate 20 64) := by
  decide +kernel

/-- `values` and `owned`. -/
example (cfg : Cfg) : (do
    let ip ← V4.noPayload v4Raw
    let h ← V4.ihl ip
    let len ← V4.length ip
    let id ← V4.id ip
    let fl ← V4.flags ip
    let proto ← V4.protocol ip
    let ck ← V4.checksum ip
    let v ← V4.isValid cfg ip
    let src ← V4.source ip
    let dst ← V4.destination ip
    .ok ((h, len, id, fl.bits == 0#16), (proto, ck, v, src, dst))) =
    .ok ((5#8, 52#16, 0x2d87#16, true), (.tcp, 0x5c74#16, true, addr 66 102 1 108, addr 192 168 0 79)) := by
  obtain ⟨oc, ea, nw⟩ := cfg
  cases oc <;> cases ea <;> cases nw <;> decide +kernel

/-- `mutable`. -/
def v4Mutable (cfg : Cfg) : Outcome (U16 × Bool × U16 × Bool × Bool) := do
  let ip ← V4.noPayload v4Raw
  ((do
    let a ← Mut.read V4.id
    let b ← Mut.read (V4.isValid cfg)
    (V4.setId 0x4242).unwrap
    let c ← Mut.read V4.id
    let d ← Mut.read (V4.isValid cfg)
    (V4.updateChecksum cfg).unwrap
    let e ← Mut.read (V4.isValid cfg)
    pure (a, b, c, d, e) : Mut Bytes _) ip).1

example (cfg : Cfg) : v4Mutable cfg = .ok (0x2d87, true, 0x4242, false, true) := by
  obtain ⟨oc, ea, nw⟩ := cfg
  cases oc <;> cases ea <;> cases nw <;> decide +kernel

/-- `mutable_checked`. -/
def v4MutableChecked (cfg : Cfg) : Outcome (U16 × Bool × Bool) := do
  let ip ← V4.noPayload v4Raw
  ((do
    let a ← Mut.read V4.id
    let b ← Mut.read (V4.isValid cfg)
    V4.checkedRun cfg [.id 0x4242]
    let e ← Mut.read (V4.isValid cfg)
    pure (a, b, e) : Mut Bytes _) ip).1

example (cfg : Cfg) : v4MutableChecked cfg = .ok (0x2d87, true, true) := by
  obtain ⟨oc, ea, nw⟩ := cfg
  cases oc <;> cases ea <;> cases nw <;> decide +kernel

/-! ## `src/ip/v4/builder.rs:221-272` -/

/-- What `icmp` and `tcp` read back. -/
def readV4 (cfg : Cfg) (packet : Bytes) :
    Outcome ((U16 × Bool × U16 × U8) × (IpProtocol × Ipv4Addr × Ipv4Addr × Bool)) := do
  let ip ← V4.new packet
  let id ← V4.id ip
  let fl ← V4.flags ip
  let len ← V4.length ip
  let ttl ← V4.ttl ip
  let proto ← V4.protocol ip
  let src ← V4.source ip
  let dst ← V4.destination ip
  let v ← V4.isValid cfg ip
  .ok ((id, fl.bits == 0#16, len, ttl), (proto, src, dst, v))

/-- `icmp`. -/
example (cfg : Cfg) : (do
    let packet ← ipv4Program cfg Dynamic.new v4Calls
      (.icmp (.echo [.request, .identifier 42, .sequence 2, .payload [0x74, 0x65, 0x73, 0x74]]))
    readV4 cfg packet) =
    .ok ((0x2d87, true, 32, 64), (.icmp, addr 66 102 1 108, addr 192 168 0 79, true)) := by
  obtain ⟨oc, ea, nw⟩ := cfg
  cases oc <;> cases ea <;> cases nw <;> decide +kernel

/-- `tcp`. -/
example (cfg : Cfg) : (do
    let packet ← ipv4Program cfg Dynamic.new v4Calls
      (.tcp [.source 1337, .destination 9001, .flags TcpFlags.syn])
    readV4 cfg packet) =
    .ok ((0x2d87, true, 40, 64), (.tcp, addr 66 102 1 108, addr 192 168 0 79, true)) := by
  obtain ⟨oc, ea, nw⟩ := cfg
  cases oc <;> cases ea <;> cases nw <;> decide +kernel

/-! ## `src/udp/packet.rs:278-327` -/

/-- `values`. -/
example (cfg : Cfg) : (do
    let ip ← V4.new udpRaw
    let udp ← V4.payload ip
    let udp ← Udp.new udp
    let a ← V4.isValid cfg ip
    let b ← Udp.isValid cfg (.v4 ip) udp
    let d ← Udp.destination udp
    .ok (a, b, d)) = .ok (true, true, 53#16) := by
  obtain ⟨oc, ea, nw⟩ := cfg
  cases oc <;> cases ea <;> cases nw <;> decide +kernel

/-- `mutable`. -/
def udpMutable (cfg : Cfg) : Outcome (Bool × U16 × U16 × Bool × Bool) := do
  let ip ← V4.new udpRaw
  let (ip, udp) ← V4.split ip
  let udp ← Udp.new udp
  ((do
    let a ← Mut.read (Udp.isValid cfg (.v4 ip))
    let b ← Mut.read Udp.destination
    (Udp.setDestination 9001).unwrap
    let c ← Mut.read Udp.destination
    let d ← Mut.read (Udp.isValid cfg (.v4 ip))
    (Udp.updateChecksum cfg (.v4 ip)).unwrap
    let e ← Mut.read (Udp.isValid cfg (.v4 ip))
    pure (a, b, c, d, e) : Mut Bytes _) udp).1

example (cfg : Cfg) : udpMutable cfg = .ok (true, 53, 9001, false, true) := by
  obtain ⟨oc, ea, nw⟩ := cfg
  cases oc <;> cases ea <;> cases nw <;> decide +kernel

/-- `mutable_checked`. -/
def udpMutableChecked (cfg : Cfg) : Outcome (Bool × U16 × U16 × Bool) := do
  let ip ← V4.new udpRaw
  let (ip, udp) ← V4.split ip
  let udp ← Udp.new udp
  ((do
    let a ← Mut.read (Udp.isValid cfg (.v4 ip))
    let b ← Mut.read Udp.destination
    Udp.checkedRun cfg (.v4 ip) [.destination 9001]
    let c ← Mut.read Udp.destination
    let e ← Mut.read (Udp.isValid cfg (.v4 ip))
    pure (a, b, c, e) : Mut Bytes _) udp).1

example (cfg : Cfg) : udpMutableChecked cfg = .ok (true, 53, 9001, true) := by
  obtain ⟨oc, ea, nw⟩ := cfg
  cases oc <;> cases ea <;> cases nw <;> decide +kernel

/-! ## `src/udp/builder.rs:150-180` -/

/-- `simple`. -/
example (cfg : Cfg) : (do
    let packet ← ipv4Program cfg Dynamic.new v4Calls (.udp [.source 1337, .destination 9001])
    let a ← readV4 cfg packet
    let ip ← V4.new packet
    let udp ← V4.payload ip
    let udp ← Udp.new udp
    let s ← Udp.source udp
    let d ← Udp.destination udp
    let v ← Udp.isValid cfg (.v4 ip) udp
    .ok (a, (s, d, v))) =
    .ok (((0x2d87, true, 28, 64), (.udp, addr 66 102 1 108, addr 192 168 0 79, true)), (1337#16, 9001#16, true)) := by
  obtain ⟨oc, ea, nw⟩ := cfg
  cases oc <;> cases ea <;> cases nw <;> decide +kernel

/-! ## `src/udp/mod.rs:100-118` -/

/-- `test_checksum`. -/
example (cfg : Cfg) : (do
    let ip ← V4.new dnsRaw
    let payload ← V4.payload ip
    let udp ← Udp.new payload
    let a ← Udp.checksumOf cfg (.v4 ip) payload
    let b ← Udp.checksum udp
    .ok (a, b)) = .ok (0xe320#16, 0xe320#16) := by
  obtain ⟨oc, ea, nw⟩ := cfg
  cases oc <;> cases ea <;> cases nw <;> decide +kernel

/-! ## `src/icmp/builder.rs:98-111` -/

/-- `simple`. -/
example (cfg : Cfg) : (do
    let packet ← icmpProgram cfg Dynamic.new
      (.echo [.request, .identifier 42, .sequence 2, .payload [0x74, 0x65, 0x73, 0x74]])
    let packet ← Icmp.new packet
    Icmp.kind packet) = .ok .echoRequest := by
  obtain ⟨oc, ea, nw⟩ := cfg
  cases oc <;> cases ea <;> cases nw <;> decide +kernel

/-! ## `src/ether/packet.rs:174-191` -/

/-- `values`. -/
example (cfg : Cfg) : (do
    let ether ← Ether.new frameRaw
    let ip ← Ether.payload ether
    let ip ← V4.new ip
    let udp ← V4.payload ip
    let udp ← Udp.new udp
    let a ← V4.isValid cfg ip
    let b ← Udp.isValid cfg (.v4 ip) udp
    let d ← Ether.destination ether
    let s ← Ether.source ether
    let p ← Ether.protocol ether
    .ok (a, b, d, s, p)) =
    .ok (true, true, ⟨0x00, 0x23, 0x69, 0x63, 0x59, 0xbe⟩, ⟨0xe4, 0xb3, 0x18, 0x26, 0x63, 0xa3⟩, .ipv4) := by
  obtain ⟨oc, ea, nw⟩ := cfg
  cases oc <;> cases ea <;> cases nw <;> decide +kernel

/-! ## `src/ether/builder.rs:157-193` -/

/-- `simple`. -/
example (cfg : Cfg) : (do
    let packet ← ethernetProgram cfg Dynamic.new
      [.destination ⟨0x00, 0x23, 0x69, 0x63, 0x59, 0xbe⟩, .source ⟨0xe4, 0xb3, 0x18, 0x26, 0x63, 0xa3⟩]
      v4Calls (.udp [.source 1337, .destination 9001])
    let ether ← Ether.new packet
    let ed ← Ether.destination ether
    let es ← Ether.source ether
    let ep ← Ether.protocol ether
    let ip ← Ether.payload ether
    let a ← readV4 cfg ip
    let ip ← V4.new ip
    let udp ← V4.payload ip
    let udp ← Udp.new udp
    let s ← Udp.source udp
    let d ← Udp.destination udp
    let v ← Udp.isValid cfg (.v4 ip) udp
    .ok ((ed, es, ep), a, (s, d, v))) =
    .ok ((⟨0x00, 0x23, 0x69, 0x63, 0x59, 0xbe⟩, ⟨0xe4, 0xb3, 0x18, 0x26, 0x63, 0xa3⟩, .ipv4),
      ((0x2d87, true, 28, 64), (.udp, addr 66 102 1 108, addr 192 168 0 79, true)), (1337#16, 9001#16, true)) := by
  obtain ⟨oc, ea, nw⟩ := cfg
  cases oc <;> cases ea <;> cases nw <;> decide +kernel

/-! ## Doc tests -/

/-- `src/packet.rs:53-61`. -/
example : (do
    let packet ← Ether.new [0x00, 0x23, 0x69, 0x63, 0x59, 0xbe, 0xe4, 0xb3, 0x18, 0x26, 0x63, 0xa3, 0x08, 0x00]
    Ether.destination packet) = .ok ⟨0x00, 0x23, 0x69, 0x63, 0x59, 0xbe⟩ := by
  decide +kernel

/-- `src/packet.rs:71-81`. -/
def docMut : Outcome (HwAddr × HwAddr) := do
  let packet ← Ether.new [0x00, 0x23, 0x69, 0x63, 0x59, 0xbe, 0xe4, 0xb3, 0x18, 0x26, 0x63, 0xa3, 0x08, 0x00]
  ((do
    let a ← Mut.read Ether.destination
    Ether.setDestination ⟨0x00, 0x23, 0x42, 0x63, 0x00, 0xbe⟩
    let b ← Mut.read Ether.destination
    pure (a, b) : Mut Bytes _) packet).1

example : docMut = .ok (⟨0x00, 0x23, 0x69, 0x63, 0x59, 0xbe⟩, ⟨0x00, 0x23, 0x42, 0x63, 0x00, 0xbe⟩) := by
  decide +kernel

/-- `src/buffer/mod.rs:25-41`. -/
def docBuffer (cfg : Cfg) : Outcome Nat := do
  let b ← onBuffer (Buffer.next cfg 20) Dynamic.new
  let b ← onBuffer (Buffer.more cfg 4) b
  let data ← Buffer.intoInner b
  .ok data.length

example (cfg : Cfg) : docBuffer cfg = .ok 24 := by
  obtain ⟨oc, ea, nw⟩ := cfg
  cases oc <;> cases ea <;> cases nw <;> decide +kernel

end Verif.Conformance

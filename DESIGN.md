# A formal model of meh/rust-packet in Lean 4

## Method

Every function of the crate that computes something (parsers, accessors, setters, checksums,
buffers, builders, finalizers, option iterators, enum tables) is transcribed, function by function,
into a total Lean function. The transcription lives in `lean/Verif/Model/`; every definition cites
file and lines. What the properties mean is written down separately in `lean/Verif/Spec/` without
using the model. The property theorems are in `lean/Verif/Props/`, one file per topic, helper lemmas in
`lean/Verif/Lemmas/`.

### Rust semantics used (`Verif/Rust.lean`)

* `u8/u16/u32` are `BitVec 8/16/32`; `usize` is `Nat`, and every `usize` operation that can leave
  `[0, 2^64)` (`[0, 2^32)` on a 32-bit target) on some API input goes through `addUsize`/`subUsize`, which model overflow
  explicitly.
* `Outcome a = ok a | err e | panic`: `Result` and panics are data. Index out of range, slice out of
  range, `unwrap` on an error, `unreachable!`, `unimplemented!` and (with overflow checks) arithmetic overflow are `panic`.
* A `&mut self` method is a function from the old bytes to `(Outcome, new bytes)`; the bytes are
  returned on errors and panics too, so partial writes are visible.
* `Cfg` collects what the source does not determine: whether overflow checks are on (debug/release
  profile), whether a failed `Cursor::read_exact` leaves the position alone (std up to 1.80) or
  moves it to the end (std since then), and whether the target is a 32-bit or a 64-bit one. Theorems quantify over `Cfg` unless the property is about it.
* `Packet<B>` for any `B: AsRef<[u8]>` is modelled by the byte list `as_ref()` returns
  (assumption: `as_ref`/`as_mut` of the user's buffer are pure and return the same bytes).

### Specification vocabulary (`Verif/Spec/`)

* `bitAt b i`, `field b start width`: bit `i` of a message counted from the most significant bit of byte
  0, and the big-endian number in a bit range - RFC header diagrams are `(start, width)` pairs.
* `SetsField b b' s w v`: same length, field `(s,w)` of `b'` is `v`, every other bit is as in `b`.
* `ocSum`, `inetChecksum`: RFC 1071 one's complement sum / checksum on 16-bit words, odd data zero-padded.
* Layer stacks (buffer contract), TLV encodings of options, wire encodings of headers as plain byte lists.

## Plan per property

| id | model | proof |
|----|-------|-------|
| C01 | `Dynamic` with every call of the `Buffer` trait | refinement to the layer-stack specification (`Spec/Layers`), induction over the call list; the `usize` wrap and the unallocatable request are separate theorems |
| C02 | `Slice` | same refinement for the calls `next`, `clear` and writes (all of the contract except growing with `more`, which is C64) |
| C03 | `Slice::next`/`more` | case analysis over all reachable states; exact set of states and the `used + size` wrap as separate theorems |
| C04 | `ip::v4::checksum` | loop invariant (value mod 65535 and range), equality with RFC 1071 `inetChecksum` |
| C05 | `icmp::checksum` | same; the odd last byte and the all-zero message are stated exactly |
| C06 | `udp::checksum` | same, over pseudo header ++ datagram |
| C07 | `tcp::checksum` | deferred carries: sum bound, then `carryFold` computes the representative mod 65535; segments up to 131000 bytes (beyond 65535 the length no longer fits the pseudo header) |
| C08 | `update_checksum` of v4, udp, tcp | the checksum functions do not read their own field (skip lemma) |
| C09 | `is_valid` of all four | congruence mod 65535; a byte change is a non-zero residue; the one exception (IHL) is its own theorem |
| C10, C11 | `ether::Packet` | exact characterisation on all inputs; setters by `SetsField` |
| C12-C16, C18 | `ip::v4::Packet` | exact characterisation on all inputs, fields by bit positions of the RFC diagram; `SetsField` |
| C17 | `set_ecn`, `set_flags`, `set_offset` | ideal statement refuted by witnesses; exact behaviour is C77 |
| C19 | `v4::Checked` | induction over the setter list; checksum skip lemma |
| C20 | `ip::Packet` | case analysis on the version nibble |
| C21, C22 | `udp::Packet` | as for IPv4 |
| C23 | `udp::Checked` | induction over the setter list |
| C24-C26 | `tcp::Packet` | as for IPv4 |
| C27 | `tcp::set_flags` | ideal statement refuted for every segment; partial: what it does to the flag bits |
| C28 | `tcp::Checked` | induction over the setter list |
| C29, C30 | option iterators | induction over the encoded option list (`Spec/Options`), with and without END |
| C31, C32 | option iterators | refuted by witnesses; exact conditions are C73 |
| C33 | option iterators | induction over the number of calls |
| C34-C37 | `icmp::Packet`, echo, timestamp, information | exact characterisation on all inputs |
| C38 | `icmp::Checked` | induction over the setter list, `Drop` on the bytes `as_ref` covers |
| C39 | previous, redirect, parameter problem | exact characterisation through `V4.new` |
| C40 | the enum tables (generated from the source) | case analysis over variants, kernel evaluation over the complete `u8`/`u16` domain |
| C41 | `Finalization` | list induction against a relational execution semantics |
| C42, C43, C45, C46, C48, C49 | builders, generic in a lawful buffer | simulation of every call on abstract header states, induction over histories, symbolic execution of the finalizers, read back through the parsers of the model |
| C44 | v4 builder with a raw payload | exact condition for every payload length, alone and inside Ethernet (partial: it is not every payload); refuted for all other lengths |
| C47 | TCP builder | refuted; exact order condition is C81 |
| C50, C51 | builder flags | induction over histories |
| C52, C76 | programs over the builder API | refuted for standalone UDP/TCP; the condition under which no build panics is C76 |
| C53, C74 | length fields | refuted; the field is the length mod 65536 (C74) |
| C54, C75 | builders on `Slice` | refuted as soon as a payload is written; equality with the growable buffer without payload (C75) |
| C55 | parsers composed | case analysis down the stack |
| C56, C79 | size traits (`Model/Kinds`) | refuted; exact condition per packet type (C79) |
| C57, C78 | size traits | refuted; exact condition per packet type (C78) |
| C58 | `as_packet` of every builder | simulation as for C42 |
| C59, C83 | `is_valid` of UDP/TCP | totality against IPv4; refuted against IPv6 |
| C60 | odd lengths | refuted; exact value for UDP on both `std` behaviours, partial for even lengths |
| C61, C80 | `Debug` (`Model/Debug`) | refuted; exact output per packet type (C80) |
| C62 | `is_valid` against the receiver's sum of the RFCs | equality of residues and of representatives |
| C63 | `payload_mut` | list lemma on the split |
| C64 | `Slice::more` | refuted in every reachable state with a non-empty layer |
| C65 | ICMP odd/zero messages | refuted by witnesses |
| C66 | UDP zero rule | partial for a non-zero computed checksum, refuted otherwise |
| C67 | `flags()` | refuted; exact in C14 |
| C68 | short header lengths | refuted, for all such packets |
| C69 | empty buffer | refuted |
| C70 | NOP payload | refuted |
| C71 | `make_request`/`make_reply` | refuted for every accepted message |
| C72 | truncated quotes | refuted |
| C73 | option iteration | exact conditions, induction over the number of calls |
| C77 | `set_ecn`, `set_flags`, `set_offset` | exact resulting bytes and the exact set of cases in which they are right |
| C81 | TCP builder order | iff over all histories |
| C82 | in-progress payload | refuted |
| C84 | `is_valid` of all four | the sum of the words is the message as one number mod 65535; a burst changes it by a multiple of a power of two, which is invertible mod 65535 |
| C85 | `Model/UserFinalizers`: programs whose histories contain `finalizer().add(f)` | every call commutes with replacing the finalizer list; relational execution semantics of C41 |
| C86 | `Model/Edits`: programs whose steps are calls or edits | invariant: the layer under construction is always accepted by `Packet::new`; induction over the steps, layer by layer |
| C87 | `Model/Edits` | false of the code: proved that without request()/reply() calls build() never succeeds, whatever the edits |
| C88 | the existing packet models | every read is below the accepted length; slices of an appended list |
| C89 | the existing model | false of the code: proved that appending zero bytes always invalidates a verified datagram of even length; proved where the buffer ends with the datagram |
| C90 | the existing models | the loops' sum is invariant under exchanging two blocks of words |
| C91 | the existing model, with u32 overflow in both profiles | false of the code: the u32 accumulator overflows once the words sum to 2^32; proved below that bound and for every segment up to 131060 bytes; proved what happens above: panic or wrong value |
| C92 | Kind.min, Kind.max, Kind.size added to the record of traits | explicit packets; the large ones by the general acceptance and view theorems |
| C93 | the existing models through the record of traits | true of Ethernet, TCP, ICMP, echo and UDP; exact condition proved for the other seven types; false for IPv6, for IPv4 below 20 bytes in total, and for error messages quoting more than a header |
| C94 | the existing models | a message is determined by its bits; setters set exactly one field. False for TCP flags, IPv4 ecn, flags and offset and for make_request/make_reply of timestamp and information, with the exact condition where there is one |
| C96 | the existing models, on arbitrary bytes | exact result of each primitive read and write, lifted through header slicing |
| C95 | copying programs written with the modelled accessors and builders; PlainV4 describes the packets covered | shape lemmas give the header as the specification's record, the accessors return its fields, the abstract builder run returns the same record, is_valid forces the stored checksums; refuted for DF packets by C97 |
| C97 | the builder programs | consequences of C98; refuted for ecn and flags on every history that uses them last |
| C98 | the builder programs | induction over the abstract run; the finalizers do not touch bytes 1, 6 and 7 |
| C99 | Opt.headerSize, payloadSize, size, header, payload, asRef | case analysis on length(); refuted for payloads above 32 bytes, which a 40-byte option area has room for, and for length 0 |
| C100 | Kind.inPayload, V4.editStack, Ether.editStack over C11, C19, C23, C28, C38 | payload_mut as a lens (from C63), composition of the per-layer theorems; the transport checksum depends on the IP packet only through its addresses |
| C101 | Udp.isValid, Tcp.isValid, V4.checkedRun | closed form of the checksum; ones' complement sums are equal iff congruent mod 65535 and both non-zero |
| C102 | ipv4Program, icmpProgram, ethernetProgram against Spec/Encode.lean | the abstract builder semantics (BuildProg, History) and the checksum theorems C04-C07 |
| C103 | X.checkedRun, X.updateChecksum, X.isValid | the fields after a session (C19, C23, C28, C38) determine every bit but the checksum; at most one checksum verifies |
| C104 | Slice, appendAll, the builder programs | a second lawful-buffer instance that remembers the untouched storage; scatter lemma by induction on the payload; then the simulation of the growable case |
| C105 | Icmp.Session.run (the kind! views around the typed packets' guards) | the guards' post-states (C38) and how the checksum loop splits at an even place; invariant over histories |
| C106 | Kind.writeHeader, Kind.writeAll (Model/Kinds) | one general lemma over the split, instantiated for the twelve types; C88 for what follows the packet (Props/Mutable) |
| C107 | Program (Spec/AnyBuffer) over the builders of Model/Builders and Model/Programs for an arbitrary Buffer instance; MeetsContract over BufOp histories | relational simulation of every builder call on two buffers (Lemmas/AnyBuffer*): same layers and same finalizers, all finalizers keep the length, a refused buffer's partner only grows (Props/AnyBuffer) |
| C108 | Kind.option (Model/Kinds): an option as a packet type; HeaderWritable, PayloadWritable, BytesWritable as for packets (C63, C106) | False of the code: one lone byte that asks for a length panics, and payload_mut() of a one-byte option is everything behind it. Exact acceptance for all other buffers, exact regions, and exactly when the payload lies inside the option (Props/OptionWrites) |
| C109 | Programs run on a Dynamic after any history of next, more, clear and edits (Spec/AnyBuffer: Program, SelfContained, Sane) | Program equations of C99 read at two start states; ReadsUdp and ReadsTcp of C28 for the layer found; InvalidPacket and the panics from C20 (Props/NestedBuild) |
| C111 | Kind.inAll, Kind.asPacketMut (Model/Nested) on top of the setters and sessions of the other properties | Each write is at a place inside the packet, so it commutes with appending; sessions by induction on the calls; as_packet_mut() from C93; UDP from C23 and C88 (Props/Behind) |
| C110 | The checksum functions and setters as modelled for C04-C08, C16, C22, C26, C36, C37; wordSum, evenPart, udpCovered (Props/Missed) as specification | The accumulators as natural numbers modulo 65535; the message as one large number, in which a field counts with a power of two, which is invertible modulo 65535 (Props/Missed) |
| C112 | etherProgram, ipv4Program, ethernetProgram, icmpProgram (Model/Programs) on the growable buffer, against the accessors and is_valid | From packet to calls: the rebuild lemmas of C95, with the whole flags word given to offset(). From calls to packet: inversion of the abstract programs and invariants over the calls (Props/Image) |
| C113 | V4/Udp/Tcp/Echo/Timestamp/Information.checkedRun and Ether.Set.run, against fields and is_valid | From session to packet: C19, C23, C28, C27 and the ICMP sessions. From packet to session: set every field to the value wanted; C103 then says the result is the packet itself, since its checksum is right and at most one is (Props/Reach) |
| C114 | V4.noPayload, V4.Set.run, V4.checkedRun | case analysis on the setter with header length against field position; induction over the session with acceptance and header length as invariant (Props/Short) |
| C115 | Ether.editStack, V4.editStack, X.editIn (Model/Nested) | the frame lemmas behind C100, generalised to any outcome of the inner program; C114, C116 for the panics (Props/Short, Props/ShortTcp) |
| C116 | Tcp.new, Tcp.Set.run, Tcp.checkedRun | case analysis on the setter; induction over the session with acceptance and data offset below 5 as invariant, then update_checksum finds its field outside the header (Props/ShortTcp) |
| C117 | Model/Unwind: guarded, on top of the setters and the Drop of checkedRun | C19/C114, C23, C28 and the ICMP sessions for the guard that works; C114, C116 and C27 for the setters that panic; append lemma for the calls before and after (Props/Unwind) |
| C118 | Model/Storage: the programs with the buffer build() was called on, storageAfter; Spec/Static: spread | invariant of the buffer through every call (bytes behind used unchanged), all finalizers keep the length; slice_append_ok for payloads (Props/Storage) |
| C119 | the builders over Slice (Model/Builders, Model/Programs) | after a payload the layer starts at the packet's last byte (Moved), an invariant of every setter; build compared with the growable buffer (Props/LateCalls) |
| C120 | the packet types and their checked() wrappers (Model/V4, Udp, Tcp, Icmp) | C110's exact description of what is valid determines the checksum modulo 65535 and below 65535, and so does RFC 1624's equation (Spec/Incremental, Props/Incremental) |
| C121 | Cfg.overflowChecks, which the model consults in its four checked operations only (Rust.lean: addUsize, subUsize, addU32, subU32); everything else takes the configuration and passes it on | each checked operation panics or agrees, and the relation is closed under sequencing, editing through views, payload loops, finalizers and nesting of builders (Lemmas/Profiles, ProfileBuilders, ProfilePrograms); the exact differences from C73, C76, C91, C96 (Spec/Profiles, Props/Profiles) |
| C122 | Model/Iterators.lean: an iterator is the function from the number of the question to the answer (a byte, None, a panic); the loop is run for a number of rounds and gives nothing while it is still running; the result counts the questions | induction over the rounds and over the bytes taken; termination from the contract of trait Buffer (C107) and from used() of buffer::Slice growing with every byte (Spec/Iterators, Lemmas/Iterators, Props/Iterators) |
| C123 | Cfg.narrow, which gives Cfg.usizeMod and Cfg.isizeMax; consulted in addUsize, subUsize and vecResize only; all other theorems quantify over it too | the relation of C121 is proved for every pair of builds of which the first checks for overflow and the second is for a target as wide or wider (Spec.Stricter); instances with the 32-bit debug build as the first (Props/Widths) |
| C124 | the derived PartialEq and Clone field by field (Model/Equality) | representation of a history as (bytes below, layer, unused tail) from C01 and C02; injectivity of append (Props/Equality) |
| C125 | with(Dynamic::default()).unwrap() for all ten builders (Model/Defaults) | computation for default(); the program equations of C109 on the empty history, induction over the calls for the second payload (Props/Defaults) |
| C126 | the operations bitflags! (version 1) generates, on the bits (Model/Flags); names and RFC bit numbers in Spec/Flags | a value is determined by its defined bits; each name is one bit, so contains of a name is a bit test; the wire claims from C24, C27 and C46 (Props/Flags) |
| C127 | what an RFC 792 error header is and what routers may quote of a packet (Spec/Quotes); the builders and readers of C39, C45, C46, C48 | from C45, C46 and C48, reading in bytes that agree outside the bytes routers change (Props/Quotes) |
| C128 | the router's program on top of the model of the reader and of checked() (Props/Forward: hop, hops) | induction over the routers; one step from C08 and the setter's exact effect; delivery from C45, C46 (Props/Forward) |
| C130 | the translator's program on top of Model/Nested (Props/Translate: translate, path) | one step from the in-place editing lemmas of C100; uniqueness: at most one checksum verifies at each layer (C103), so a packet is determined by its flow and the rest; induction over the path (Props/Translate) |
| C131 | Model/Builders and Model/Programs on Slice; the faults in Spec/Faults and Spec/StaticFaults, which know only the calls and the size | the abstract semantics of whole programs with a capacity (Lemmas/BuildProg) and the fault analysis of C129 per history (Props/StaticFaults) |
| C132 | the nodes of C128 and C130 in a list (Props/Network: travel) | induction over the list; uniqueness of the checksums (C103); byte encodings of C102 for the comparison with the direct build (Props/Network) |
| C129 | the programs of Model/Programs; a separate list of faults that looks at the calls only (Spec/Faults) | a fold invariant (the builder remembers exactly which payload, kind and flags were set) by induction over the history, then the exact results of the finalizers for payloads of every size (Props/Faults) |
| C133 | the host as a program over the model (Props/Ping: pong) | C100 for the nested edit, C38 for the echo session, C36 for the readings; uniqueness of the checksums (C103) and the byte encodings of C102 for the comparison with the direct build (Props/Ping) |
| C134 | the receiver as a program over the model (Props/Streams: drain, receive) | well-founded induction over the bytes, induction over the chunks; C12 for acceptance, C88 for the bytes behind, C111 and C19 for the session (Props/Streams) |
| C135 | the station as a program over the model, with the packet handler as a parameter (Props/Lan: Station.handle, walk) | induction over the list of stations; C133 and C128 for the handlers; C102 for built frames (Props/Lan) |
| C136 | the receiver as a program over the model (Props/Reassembly: reassemble, reassembleAll); what arrives is any list of byte strings | induction over the arrivals; C46 for built segments, C128 for routers, C09 for damaged ones (Props/Reassembly) |
| C137 | the dissector as a program over the model (Props/Dissect: dissect); what is to be read as a separate function of the bits (Spec/Dissect: reading) | equality of the two functions, layer by layer, from the acceptance and field theorems (C10, C12, C14, C21, C24, C34-C39) and the checksum theorems (C04-C07, C60); C45, C46, C48, C49, C98 for built frames (Props/Dissect) |
| C138 | the server as a program over the model (Props/Service: Service.serve, Service.reply); a request in terms of Spec/Dissect's reading | case by case along the layers, from the acceptance, field and checksum theorems; C137 and C45 for the reply and for built requests (Props/Service) |
| C139 | the host as a program over the model (Props/Reset: Host.refuse, Host.reset, resetWords); RFC 793's reset as a function of numbers (Spec/Reset: resetFor), segments in terms of Spec/Dissect's reading | case by case along the layers from C10, C12, C14, C24, C60; flags bit by bit (C126); C137, C46 and C49 for what is built (Props/Reset) |
| C140 | the stations of C135 around the nodes of C132, the service of C138 (Props/Exchange: Station.node) | C135's walk for the frames, C132 for the packets as built, C102 for the frames as built; then C138 on what arrives and the same way back; C137 for what is shown (Props/Exchange) |
| C141 | the translator of C130 with a table of inside endpoints (Props/Gateway: Gateway.outward, Gateway.inward; RFC 3022) | C130 for a packet; an invariant of the table (no endpoint twice, no port beyond the last, entries never move) over histories (Props/Gateway) |
| C142 | the gateway of C141 in front of the network of C132 (Props/Masquerade) | C141_return and C132_travel, and a lemma that what may change on the way is not in what is carried (Props/Masquerade) |

A property the code violates stays in `properties.jsonl` at full strength and is reported as partial. Its
theorems are named `..._refuted` (the negation of the full statement, proved from a witness or for all
inputs) and `..._partial` (the part that holds, with its hypotheses). What the code does instead is a
property of its own, proved without reservation (the "exactly" properties C73-C81).

## What is modelled

Every function under `src/` that computes something: `buffer/{mod,dynamic,slice}.rs`, `builder.rs`
(`Finalization`), `packet.rs`, `size.rs`, `error.rs` (the variants), `ether/*`, `ip/{mod,packet,builder}.rs`,
`ip/v4/*`, `ip/v6/*`, `ip/protocol.rs`, `icmp/**`, `tcp/*`, `udp/*`, including `fmt::Debug` of the packets as
structured data. The wire tables (`Model/Tables.lean`) are generated from the source by `tools/mktables.py`.

Simplifications, also stated at the definitions:

* the option parser of `ip/v4/option.rs` and `tcp/option.rs` is one definition, instantiated twice;
* the three messages that quote a packet share `packet()` and their payload size;
* `split_mut`/`as_mut`/`header_mut`/`payload_mut` have the same bodies as their shared counterparts and are
  the same functions, followed by a write to the bytes they return;
* `to_owned` and `Clone` copy the bytes and are the identity; `unchecked` is the identity;
* `usize` is 32 or 64 bits wide, 16-bit targets are not covered; allocation failure (process abort) is not modelled, a request above
  `isize::MAX` is a panic;
* the error values carried by `Error::Io` and `Error::Nul` are dropped;
* a panic ends the run; `Drop` of a `checked()` guard during unwinding is modelled on its own (`Model/Unwind`, C117),
  `panic = "abort"` is not.

## What is not modelled

* the text `fmt::Debug` renders, `fmt::Display` of `Error`;
* lifetimes, borrowing, aliasing, `Send`/`Sync`: the type system of Rust is relied on;
* user implementations of `Buffer` that break the contract of the trait: those that keep it are covered by C107
  (`MeetsContract`), and C41, C50, C85, C121 and C122 hold of every implementation (C121 if its own operations agree);
* functions that only move a value: `to_owned` (a copy of the bytes; used in `Model/Nested.lean`);
* user buffers whose `as_ref` is not a pure function;
* the crate has no examples; its test modules are not part of the model but see below.

### Agreement with the project's own tests

`lean/Verif/Samples.lean` holds two hosts' worth of well-formed packets and builder calls.  Every theorem with hypotheses
is followed by an `example` that applies it to such a packet or program (or states that its hypotheses hold of one), so
that none of them is vacuous.

`lean/Verif/Conformance/UnitTests.lean` replays every `#[test]` and every doc test of the crate on the model
(all 20 tests and 3 doc tests, debug and release): the kernel computes the values the project asserts. Two of
the tests use odd-length TCP segments and pass only where a failed `Cursor::read_exact` leaves the position
alone; with the newer behaviour the model panics, which is C60.

## Trusted base

* Lean 4.33.0's kernel.
* Axioms. Of the theorems named in `MANIFEST.json`, these depend on no axiom: `C40_ether_protocol`, `C51_no_protocol`;
  these on `propext` only: `C32_tcp_options_refuted`, `C40_assigned_numbers`, `C41_moved`, `C41_finalize_executes`, `C41_each_once_in_reverse`, `C41_first_error_stops`, `C41_extend`, `C68_tcp_options_refuted`, `C108_option_new_panics_refuted`, `C122_again`, `C135_not_mine`;
  these on `propext` and `Quot.sound` only: `C01_dynamic_layers`, `C01_unallocatable`, `C02_slice_layers`, `C03_states`, `C03_wraparound`, `C03_more_wraparound`, `C10_ether_accept`, `C17_v4_set_offset_refuted`, `C18_v4_range_checks`, `C20_ip_views`, `C31_error_stream_refuted`, `C31_zero_length_refuted`, `C73_error_forever`, `C32_options_refuted`, `C73_next_panics_iff`, `C73_accessors_panic_iff`, `C73_no_panic_step`, `C33_options_tile`, `C34_icmp_accept`, `C40_ip_protocol`, `C40_icmp_kind`, `C40_icmp_codes`, `C40_option_numbers`, `C40_v4_option_class`, `C40_v4_option_class_panics`, `C40_no_collapse`, `C50_ether_payload_once`, `C50_v4_payload_once`, `C50_udp_payload_once`, `C50_tcp_payload_once`, `C50_echo_payload_once`, `C51_v6_program`, `C51_echo_needs_kind`, `C51_timestamp_needs_kind`, `C51_information_needs_kind`, `C76_ether_no_panic`, `C58_timestamp_view`, `C58_information_view`, `C63_short_header_needed`, `C64_slice_more_refuted`, `C64_slice_more_example`, `C65_icmp_zero_valid_refuted`, `C66_udp_all_ones_refuted`, `C66_udp_no_checksum_refuted`, `C67_v4_more_fragments_refuted`, `C67_v4_flags_panic_refuted`, `C68_v4_options_refuted`, `C69_ip_empty_refuted`, `C70_nop_payload_refuted`, `C72_truncated_quote_refuted`, `C80_option_debug`, `C85_ether_user_finalizers`, `C86_ether_edits`, `C87_kind_edit_refuted`, `C92_min_attained`, `C92_header_max_attained`, `C94_v4_refuted`, `C99_zero_length_refuted`, `C99_option_bounds_attained_partial`, `C99_option_payload_max_refuted`, `C99_option_slices_partial`, `C107_dynamic`, `C107_repaired_slice`, `C107_not_slice`, `C108_option_new_partial`, `C121_views`, `C121_buffers`, `C121_options`, `C122_refused`, `C122_lists`, `C122_breaks`, `C122_success`, `C122_profiles`, `C123_views`, `C123_iterators`, `C123_differences`, `C124_dynamic_observed`, `C124_dynamic_histories`, `C124_slice_histories`, `C125_default`, `C129_ether`, `C135_walk`;
  all others on `propext`, `Classical.choice` and `Quot.sound`.
  There is no other axiom, `native_decide` or `bv_decide` anywhere.
* The reading of the Rust source in `Model/`, and of the language, `std`, `byteorder`, `bitflags` and
  `hwaddr` in `Rust.lean` and the definitions that cite them.
* That `properties.jsonl`, `Spec/` and the theorem statements say the same thing. `Spec/` does not import
  `Model/` except for the operation types a history is made of.

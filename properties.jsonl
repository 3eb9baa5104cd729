{"id": "C01", "title": "buffer::Dynamic implements the documented layer contract", "statement": "After any history of next/more/clear and in-place writes through data_mut whose total stays within isize::MAX bytes, every call succeeds and buffer::Dynamic behaves like a stack of layers: data() is exactly the current layer, offset() is the number of bytes below it, length() its size, used() the total, into_inner() the concatenation; next/more hand out zeroed bytes and never disturb bytes already written. A request beyond isize::MAX panics (allocation); only a request so large that used()+size leaves usize is accepted wrongly, in builds without overflow checks.", "quantifier": "every finite sequence of buffer operations with every size and every written content", "why_tests_cant": "a test fixes one sequence; the layer bookkeeping (offset/length/used) has to stay consistent after every history", "anchors": ["src/buffer/dynamic.rs: Buffer", "src/buffer/mod.rs: trait Buffer"]}
{"id": "C02", "title": "buffer::Slice implements the same layer contract", "statement": "After any history of next/clear, in-place writes, and more on an empty layer that fits in the wrapped slice, every call succeeds and buffer::Slice behaves like the same stack of layers as buffer::Dynamic, whatever the wrapped slice held. (C64 is about more on a non-empty layer.)", "quantifier": "every wrapped slice, every finite sequence of buffer operations", "why_tests_cant": "whether `more` keeps the layer in place depends on the state left by all previous operations", "anchors": ["src/buffer/slice.rs: Buffer", "src/buffer/mod.rs: trait Buffer"]}
{"id": "C03", "title": "buffer::Slice refuses what does not fit, without side effects", "statement": "If a next/more request whose end is a usize does not fit in the wrapped slice the call returns SmallBuffer, and the wrapped bytes and offset/length/used are unchanged; if it fits, next succeeds; bytes of the wrapped slice beyond used() are never modified by next or by writes through data_mut made after next. A request whose end overflows usize panics.", "quantifier": "every wrapped slice, every state, every requested size (the whole usize range)", "why_tests_cant": "the boundary (exact fit) and arithmetic wrap-around of used+size are not reachable by sampling sizes", "anchors": ["src/buffer/slice.rs: next, more"]}
{"id": "C04", "title": "IPv4 header checksum is the RFC 791/1071 checksum", "statement": "ip::v4::checksum(header) is the Internet checksum (one's complement of the one's complement sum of the 16-bit big-endian words, the checksum field counted as zero) of the header, for every header of an accepted version-4 packet that is long enough to contain the checksum field; it never panics or overflows, whatever it is given.", "quantifier": "every byte string; RFC agreement for every even-length header with a non-zero word outside the checksum field", "why_tests_cant": "carry folding and the skip-by-position logic must be right for every word sequence", "anchors": ["src/ip/v4/mod.rs: checksum"]}
{"id": "C05", "title": "ICMP checksum is the RFC 792/1071 checksum", "statement": "icmp::checksum(message) never panics; for every even-length message with a non-zero word outside the checksum field it is the Internet checksum of the message with the checksum field counted as zero; for an odd-length message it is the checksum of the message without its last byte. (C65 is about what odd-length and all-zero messages should give.)", "quantifier": "every ICMP message of every length", "why_tests_cant": "odd lengths and all-zero messages are corner cases of an unbounded input space", "anchors": ["src/icmp/mod.rs: checksum"]}
{"id": "C06", "title": "UDP checksum is the RFC 768 checksum", "statement": "udp::checksum(ip, datagram) is the Internet checksum of pseudo-header (source, destination, 0, 17, length) followed by the datagram padded to even length, the checksum field counted as zero, for every IPv4 header and every datagram (of even length, or of odd length on a standard library whose failed Cursor::read_exact does not move the cursor; C60 is about the rest). (C66 is about the replacement of a computed zero.)", "quantifier": "every IPv4 header (source/destination) and every datagram up to 65535 bytes, every standard-library cursor behaviour", "why_tests_cant": "depends on all bytes, odd/even length, carry patterns and the single value 0", "anchors": ["src/udp/mod.rs: checksum"]}
{"id": "C07", "title": "TCP checksum is the RFC 793 checksum", "statement": "tcp::checksum(ip, segment) is the Internet checksum of pseudo-header (source, destination, 0, 6, length) followed by the segment padded to even length, the checksum field counted as zero, for every IPv4 header and every segment of 20 to 65535 bytes (of even length, or of odd length on a standard library whose failed Cursor::read_exact does not move the cursor; C60 is about the rest).", "quantifier": "every IPv4 header and every segment up to 65535 bytes, odd and even, both overflow-check profiles, every standard-library cursor behaviour", "why_tests_cant": "deferred carry folding in a u32 has to be right for every sum; overflow only appears for huge inputs", "anchors": ["src/tcp/mod.rs: checksum"]}
{"id": "C08", "title": "A packet whose checksum has been updated verifies, and only the checksum bytes changed", "statement": "After update_checksum() on an IPv4/TCP/UDP packet that has room for its header (of even length, or of odd length on a standard library whose failed Cursor::read_exact does not move the cursor; C60 is about the rest), is_valid() is true, the bytes verify the way RFC 1071 tells a receiver to, calling update_checksum() again changes nothing, and no byte other than the two checksum bytes changed.", "quantifier": "every packet content (TCP: up to 65535 bytes, the most IPv4 can announce; C91 is about more), every enclosing IPv4 header", "why_tests_cant": "is_valid must hold for every content, not the sampled captures", "anchors": ["src/ip/v4/packet.rs: update_checksum, is_valid", "src/tcp/packet.rs: update_checksum, is_valid", "src/udp/packet.rs: update_checksum, is_valid"]}
{"id": "C09", "title": "Every single-byte corruption of a checksummed packet is detected", "statement": "If is_valid() holds and then exactly one byte read by the checksum is changed to a different value, is_valid() becomes false: any byte of an IPv4 header unless the change is to the IHL nibble (which changes what is covered), any byte of the 16-bit words of an ICMP message, any byte of a TCP segment or UDP datagram (of even length, or of odd length on a standard library whose failed Cursor::read_exact does not move the cursor; C60 is about the rest).", "quantifier": "every valid packet, every byte position, every replacement value", "why_tests_cant": "quantifies over all packets, positions and values", "anchors": ["src/ip/v4/mod.rs: checksum", "src/icmp/mod.rs: checksum", "src/tcp/mod.rs: checksum", "src/udp/mod.rs: checksum"]}
{"id": "C10", "title": "Ethernet frames: acceptance, fields and views", "statement": "ether::Packet::new accepts exactly the buffers of at least 14 bytes (SmallBuffer otherwise, never a panic); on an accepted buffer destination/source/protocol are bytes 0..6, 6..12 and the big-endian 12..14, header() is the first 14 bytes, payload() the rest, as_ref() the whole buffer and the size traits agree.", "quantifier": "every byte string", "why_tests_cant": "all lengths and contents", "anchors": ["src/ether/packet.rs: Packet"]}
{"id": "C11", "title": "Ethernet setters write exactly their field", "statement": "On an accepted frame set_destination/set_source/set_protocol succeed, the corresponding getter then returns the value (the protocol getter: the canonical name of the number written, see C40), and every other bit of the frame is unchanged.", "quantifier": "every accepted frame, every value", "why_tests_cant": "frame condition over all other bits", "anchors": ["src/ether/packet.rs: set_destination, set_source, set_protocol"]}
{"id": "C12", "title": "IPv4 acceptance is exactly the documented check and never panics", "statement": "ip::v4::Packet::new/no_payload never panic; no_payload accepts exactly buffers of >= 20 bytes whose version nibble is 4 and which contain the IHL*4 header bytes; new additionally requires the total-length bytes to be present; failures are SmallBuffer for length and InvalidPacket for version, in that order.", "quantifier": "every byte string", "why_tests_cant": "the order and boundaries of four checks over all inputs", "anchors": ["src/ip/v4/packet.rs: new, no_payload"]}
{"id": "C13", "title": "Every accessor of an accepted IPv4 packet is total", "statement": "On a packet accepted by ip::v4::Packet::new every accessor (version .. destination, header, payload, is_valid, as_ref) returns without panicking; flags() returns whenever the MF bit is clear, and options() whenever IHL >= 5, as an iterator over bytes 20..IHL*4. (C67, C68 are about the rest.)", "quantifier": "every accepted packet", "why_tests_cant": "a single unusual header bit pattern can trigger a panic", "anchors": ["src/ip/v4/packet.rs: flags, options, split, as_ref"]}
{"id": "C14", "title": "IPv4 accessors decode the RFC 791 header fields", "statement": "On an accepted packet version, header (IHL), dscp, ecn, length, id, offset, ttl, protocol, checksum, source and destination return the bit fields at the RFC 791 positions; flags(), when it returns, reports DONT_FRAGMENT according to the DF bit (and exactly: it panics if MF is set, and reports the reserved bit as MORE_FRAGMENTS otherwise).", "quantifier": "every accepted packet", "why_tests_cant": "every bit pattern of the header", "anchors": ["src/ip/v4/packet.rs", "src/ip/v4/flag.rs: Flags"]}
{"id": "C15", "title": "IPv4 header/payload split is the wire split", "statement": "On an accepted packet header() is the first IHL*4 bytes, payload() is the following total_length - IHL*4 bytes (empty if that is negative), as_ref() is header followed by payload, and the size traits equal the slice lengths; link-layer padding behind total_length is not part of the payload.", "quantifier": "every accepted packet", "why_tests_cant": "interaction of three lengths (buffer, IHL, total length)", "anchors": ["src/ip/v4/packet.rs: split, sized!, as_ref"]}
{"id": "C16", "title": "IPv4 setters write exactly their field", "statement": "On an accepted packet with a legal header length (IHL >= 5) set_dscp, set_id, set_ttl, set_source, set_destination, set_protocol and set_checksum store the value in exactly their RFC 791 bit field, leave every other bit unchanged, and the getter returns the value.", "quantifier": "every accepted packet, every value in range", "why_tests_cant": "frame condition over all other bits", "anchors": ["src/ip/v4/packet.rs: setters"]}
{"id": "C17", "title": "IPv4 set_ecn, set_flags and set_offset write exactly their field", "statement": "set_ecn(v), set_flags(f) and set_offset(o) store the value in exactly the ECN, flags and fragment-offset bit fields and leave every other bit unchanged, and set_offset refuses values above 0x1fff.", "quantifier": "every accepted packet with IHL >= 5, every value in range", "why_tests_cant": "neighbouring bit fields share a byte; only some old/new combinations expose a wrong mask", "anchors": ["src/ip/v4/packet.rs: set_ecn, set_flags, set_offset"]}
{"id": "C18", "title": "Out-of-range dscp and ecn values are refused", "statement": "set_dscp(v) with v > 63 and set_ecn(v) with v > 3 return InvalidValue and leave the packet unchanged.", "quantifier": "every packet, every out-of-range value", "why_tests_cant": "all values and packets", "anchors": ["src/ip/v4/packet.rs: set_dscp, set_ecn, set_offset"]}
{"id": "C19", "title": "IPv4 checked() leaves a valid checksum after any history of setters", "statement": "After any sequence of setter calls through checked() on an accepted packet with IHL >= 5 (including calls that return an error), once the Checked guard is dropped is_valid() is true.", "quantifier": "every accepted packet with IHL >= 5, every finite sequence of checked setter calls with any arguments", "why_tests_cant": "histories are unbounded", "anchors": ["src/ip/v4/packet.rs: Checked"]}
{"id": "C20", "title": "ip::Packet dispatches on the version nibble and is total", "statement": "On every non-empty buffer ip::Packet::new/no_payload return: version nibble 4 gives the v4 result, 6 the v6 result, anything else InvalidPacket; all views are those of the chosen variant (for v6: empty). (C69 is about the empty buffer.) ip::v6::Packet::new and no_payload accept exactly version 6 and answer InvalidPacket to every other version. ip::Packet::from of an accepted v4 or v6 packet is what ip::Packet makes of the same bytes.", "quantifier": "every non-empty byte string", "why_tests_cant": "the empty input and every nibble", "anchors": ["src/ip/packet.rs: Packet", "src/ip/v6/packet.rs: Packet"]}
{"id": "C21", "title": "UDP acceptance, fields and views", "statement": "udp::Packet::new/no_payload never panic; no_payload accepts exactly buffers of >= 8 bytes, new additionally requires the length-field bytes to be present; ports, length and checksum are the RFC 768 fields; header() is 8 bytes, payload() the length-8 bytes that follow (empty if length < 8); as_ref() is header followed by payload.", "quantifier": "every byte string", "why_tests_cant": "all lengths and contents", "anchors": ["src/udp/packet.rs: Packet"]}
{"id": "C22", "title": "UDP setters write exactly their field", "statement": "On an accepted datagram set_source/set_destination/set_checksum change exactly their 16-bit field.", "quantifier": "every accepted datagram, every value", "why_tests_cant": "frame condition over all other bits", "anchors": ["src/udp/packet.rs: set_source, set_destination, set_checksum"]}
{"id": "C23", "title": "UDP checked() leaves a valid checksum after any history of setters", "statement": "After any sequence of setter calls through checked(ip) with an IPv4 header, once the guard is dropped is_valid(ip) is true.", "quantifier": "every accepted datagram, every IPv4 header, every finite sequence of calls", "why_tests_cant": "histories are unbounded", "anchors": ["src/udp/packet.rs: Checked"]}
{"id": "C24", "title": "TCP acceptance, fields and views", "statement": "tcp::Packet::new never panics and accepts exactly buffers of >= 20 bytes that contain the data-offset*4 header bytes; on an accepted segment ports, sequence, acknowledgment, offset, flags, window, checksum and pointer are the RFC 793/3540 fields and never panic; header() is offset*4 bytes and payload() the rest; as_ref() is the whole buffer.", "quantifier": "every byte string", "why_tests_cant": "all lengths and contents", "anchors": ["src/tcp/packet.rs: Packet"]}
{"id": "C25", "title": "tcp::Packet::options covers exactly the option area", "statement": "On a segment accepted by tcp::Packet::new with data offset >= 5, options() returns an iterator over bytes 20..offset*4 without panicking. (C68 is about smaller offsets.)", "quantifier": "every accepted segment", "why_tests_cant": "data offsets below 5 are unusual but accepted", "anchors": ["src/tcp/packet.rs: options"]}
{"id": "C26", "title": "TCP setters write exactly their field", "statement": "On an accepted segment with data offset >= 5 set_source, set_destination, set_sequence, set_acknowledgment, set_window, set_pointer and set_checksum change exactly their field.", "quantifier": "every accepted segment with offset >= 5, every value", "why_tests_cant": "frame condition over all other bits", "anchors": ["src/tcp/packet.rs: setters"]}
{"id": "C27", "title": "TCP set_flags writes exactly the flag bits", "statement": "set_flags(f) stores f in the nine flag bits and leaves every other bit (in particular the data offset) unchanged; the segment stays usable and a checked() guard can be dropped.", "quantifier": "every accepted segment with offset >= 5, every flag set", "why_tests_cant": "the offset nibble shares a byte with a flag bit", "anchors": ["src/tcp/packet.rs: set_flags"]}
{"id": "C28", "title": "TCP checked() leaves a valid checksum after any history of setters", "statement": "After any sequence of setter calls other than set_flags through checked(ip) on an accepted segment with offset >= 5 (of even length, or of odd length on a standard library whose failed Cursor::read_exact does not move the cursor; C60 is about the rest), dropping the guard does not panic, is_valid(ip) is true, every field has the last value given and everything behind the header is unchanged.", "quantifier": "every accepted segment of up to 65535 bytes (C91 is about more) with offset >= 5, every IPv4 header, every finite sequence of calls", "why_tests_cant": "histories are unbounded", "anchors": ["src/tcp/packet.rs: Checked"]}
{"id": "C29", "title": "TCP option iteration returns exactly the encoded options", "statement": "If the option area is the concatenation of encoded options (single-byte NOPs and kind/length/data triples) optionally followed by End and padding, options() yields exactly those options in order, each with its number, length and (kind/length/data options) payload, and then ends and stays ended. (C70 is about the payload of a NOP.)", "quantifier": "every list of options with any payload contents that fits", "why_tests_cant": "unbounded lists, every payload", "anchors": ["src/tcp/option.rs", "src/tcp/packet.rs: OptionIter"]}
{"id": "C30", "title": "IPv4 option iteration returns exactly the encoded options", "statement": "Same for IPv4 options (copied flag, class, number; End and NoOperation single-byte).", "quantifier": "every list of options", "why_tests_cant": "unbounded lists, every payload", "anchors": ["src/ip/v4/option.rs", "src/ip/v4/packet.rs: OptionIter"]}
{"id": "C31", "title": "Option iteration terminates on every input", "statement": "For every byte string in the option area, iterating options() to exhaustion (for opt in packet.options()) ends after finitely many items.", "quantifier": "every option area", "why_tests_cant": "non-termination is a liveness property over all inputs", "anchors": ["src/ip/v4/packet.rs: OptionIter::next", "src/tcp/packet.rs: OptionIter::next"]}
{"id": "C32", "title": "Option iteration and option accessors never panic", "statement": "For every option area, every call of next() and every accessor of a yielded option returns without panicking, in debug and release builds.", "quantifier": "every option area", "why_tests_cant": "malformed trailing bytes are a corner of an unbounded input space", "anchors": ["src/ip/v4/option.rs: new, length, sized!", "src/tcp/option.rs: new, length, sized!"]}
{"id": "C33", "title": "Successfully yielded options tile the option area", "statement": "The options yielded as Ok are consecutive: the first starts at the beginning of the option area, each next one starts where the previous ended, each lies inside the area, so that no byte is skipped or reported twice.", "quantifier": "every option area and every number of iteration steps that complete without a panic (C73)", "why_tests_cant": "unbounded iteration over arbitrary input", "anchors": ["src/ip/v4/packet.rs: OptionIter::next", "src/tcp/packet.rs: OptionIter::next"]}
{"id": "C34", "title": "ICMP acceptance, fields and views", "statement": "icmp::Packet::new accepts exactly buffers of >= 4 bytes, never panics; kind/code/checksum are bytes 0, 1 and 2..4; header() is 4 bytes, payload() the rest, as_ref() all; is_valid() never panics.", "quantifier": "every byte string", "why_tests_cant": "all contents", "anchors": ["src/icmp/packet.rs: Packet"]}
{"id": "C35", "title": "The typed ICMP views accept exactly their message kinds", "statement": "echo(), timestamp(), information(), parameter_problem(), redirect_message() and previous() each accept exactly the messages of their kinds that are long enough (8 bytes, 20 for timestamp), fail with SmallBuffer resp. InvalidPacket otherwise, never panic, and no message is accepted by two of them.", "quantifier": "every ICMP message", "why_tests_cant": "six overlapping decision tables over all inputs", "anchors": ["src/icmp/packet.rs: kind!", "src/icmp/echo/packet.rs: new", "src/icmp/timestamp/packet.rs: new", "src/icmp/information/packet.rs: new", "src/icmp/parameter_problem/packet.rs: new", "src/icmp/redirect_message/packet.rs: new", "src/icmp/previous/packet.rs: new"]}
{"id": "C36", "title": "Echo messages: fields, setters, views", "statement": "On an accepted echo message is_request/is_reply/identifier/sequence read their fields, exactly one of is_request/is_reply holds, make_request/make_reply/set_identifier/set_sequence change exactly their field; after make_request is_request holds; header is 8 bytes, payload the rest.", "quantifier": "every accepted message, every value", "why_tests_cant": "frame condition over all other bits", "anchors": ["src/icmp/echo/packet.rs"]}
{"id": "C37", "title": "Timestamp and information messages: fields and setters", "statement": "On an accepted timestamp/information message the getters read and the field setters write exactly their fields, and the message is still accepted afterwards. header() is the first 8 bytes and payload() everything after them. (C71 is about make_request/make_reply.)", "quantifier": "every accepted message, every value", "why_tests_cant": "frame condition over all other bits", "anchors": ["src/icmp/timestamp/packet.rs", "src/icmp/information/packet.rs"]}
{"id": "C38", "title": "ICMP checked() leaves a valid checksum after any history of setters", "statement": "After any sequence of setter calls through checked() on an accepted echo/timestamp/information message, once the guard is dropped the message verifies (icmp::Packet::is_valid over the bytes the view covers), every field that was set holds the last value given, and the code and all other bytes are as before.", "quantifier": "every accepted message, every finite sequence of calls", "why_tests_cant": "histories are unbounded", "anchors": ["src/icmp/packet.rs: Checked", "src/icmp/echo/packet.rs: Checked", "src/icmp/timestamp/packet.rs: Checked", "src/icmp/information/packet.rs: Checked"]}
{"id": "C39", "title": "ICMP error messages expose the quoted packet", "statement": "On an accepted parameter-problem/redirect/destination-unreachable/time-exceeded/source-quench message, pointer()/gateway() are the RFC 792 fields, packet() is what ip::v4::Packet::new says about the bytes from byte 8 on, in particular the quoted packet whenever it is there entirely; none of the accessors panics. (C72 is about truncated quotes.)", "quantifier": "every accepted message", "why_tests_cant": "all quoted headers", "anchors": ["src/icmp/parameter_problem/packet.rs", "src/icmp/redirect_message/packet.rs", "src/icmp/previous/packet.rs"]}
{"id": "C40", "title": "Protocol / kind / code / option-number enums are lossless", "statement": "Converting any wire value to ether::Protocol, ip::Protocol, icmp::Kind, the ICMP codes and option numbers, and any two-bit value to an option class, and back gives the same wire value; converting a named variant to the wire and back gives the variant; the numbers are those the registries assign. (Class::from of a larger u8 panics.)", "quantifier": "every u8 / u16 value and every variant", "why_tests_cant": "two independent 100+ entry tables must be inverse for the whole domain", "anchors": ["src/ether/protocol.rs", "src/ip/protocol.rs", "src/icmp/kind.rs", "src/icmp/code.rs", "src/ip/v4/option.rs: Number, Class", "src/tcp/option.rs: Number"]}
{"id": "C41", "title": "Finalizers run innermost first, once, stopping at the first error", "statement": "Finalization::finalize runs every added finalizer exactly once on the buffer in reverse order of addition, feeding each the bytes left by the previous one, and stops with the error of the first one that fails; extend appends in order. Finalizers taken out of one Finalization (into_iter, into) and given to extend of another keep order and number and run before those already there; a default Finalization runs none.", "quantifier": "every list of finalizers, every buffer", "why_tests_cant": "any number of finalizers with arbitrary behaviour", "anchors": ["src/builder.rs: Finalization"]}
{"id": "C42", "title": "Ethernet builder produces the frame that was asked for", "statement": "For any sequence of destination/source/protocol calls and at most one payload call, in any order, build() returns a 14-byte header holding the last value given for each field (zero if never given) followed by the payload; ether::Packet::new accepts it and reads the values back.", "quantifier": "every history of builder calls, every value, every payload", "why_tests_cant": "order independence and last-write-wins over unbounded histories", "anchors": ["src/ether/builder.rs"]}
{"id": "C43", "title": "IPv4 builder produces a valid header", "statement": "For any sequence of IPv4 builder field calls that do not go through the flags/offset/ecn setters, build() without payload returns a 20-byte header accepted by ip::v4::Packet::new with version 4, IHL 5, total length 20, the last value given for every field, and is_valid() true.", "quantifier": "every history of builder calls, every value", "why_tests_cant": "unbounded histories", "anchors": ["src/ip/v4/builder.rs"]}
{"id": "C44", "title": "IPv4 builder with a raw payload produces a valid packet", "statement": "With payload(bytes) the built packet has IHL 5, total length 20+len, is accepted by ip::v4::Packet::new, verifies, and payload() returns the bytes. The same inside an Ethernet frame, whose protocol is then Ipv4.", "quantifier": "every history of builder calls, every payload up to 65515 bytes", "why_tests_cant": "only particular payload lengths expose a wrong header length", "anchors": ["src/ip/v4/builder.rs: payload, prepare"]}
{"id": "C45", "title": "UDP-in-IPv4 build round-trips", "statement": "For any histories of IPv4 and UDP builder calls and any payload with total length up to 65535, build() returns a packet that ip::v4::Packet::new accepts, with protocol UDP, correct total length and header checksum, whose payload udp::Packet::new accepts with the given ports, correct length field, a checksum for which is_valid holds, and exactly the given payload.", "quantifier": "every history of builder calls, every value, every payload", "why_tests_cant": "unbounded histories and payloads", "anchors": ["src/udp/builder.rs", "src/ip/v4/builder.rs"]}
{"id": "C46", "title": "TCP-in-IPv4 build round-trips", "statement": "Same for TCP: for any history of TCP builder calls in which no header setter follows flags(), ports, sequence, acknowledgment, flags, window, pointer and payload are read back, data offset is 5, checksum verifies, total up to 65535 bytes (for payloads of even length, or of odd length on a standard library whose failed Cursor::read_exact does not move the cursor; C60 is about the rest).", "quantifier": "every history of builder calls in which flags() comes last among the header setters, every value, every payload", "why_tests_cant": "unbounded histories and payloads", "anchors": ["src/tcp/builder.rs", "src/ip/v4/builder.rs"]}
{"id": "C47", "title": "TCP builder accepts its setters in any order", "statement": "The TCP builder's header setters may be called in any order and any number of times; build() succeeds and the last value given for each field is in the packet.", "quantifier": "every history of TCP builder calls", "why_tests_cant": "order-dependent failures only appear for some permutations", "anchors": ["src/tcp/builder.rs", "src/tcp/packet.rs: set_flags"]}
{"id": "C48", "title": "ICMP builds round-trip", "statement": "For echo (with payload), timestamp and information builders, standalone or inside IPv4, any history of calls that includes request() or reply() builds a message that icmp::Packet::new and the typed view accept, with the last values given, the payload, and is_valid() true; inside IPv4 the IP header is right as well.", "quantifier": "every history of builder calls, every value, every payload", "why_tests_cant": "unbounded histories and payloads", "anchors": ["src/icmp/builder.rs", "src/icmp/echo/builder.rs", "src/icmp/timestamp/builder.rs", "src/icmp/information/builder.rs"]}
{"id": "C49", "title": "A full Ethernet/IPv4/transport build composes", "statement": "ether -> ip -> v4 -> udp/tcp/icmp builds give a frame whose Ethernet header has the requested addresses and protocol Ipv4 whatever protocol was set, followed by exactly the bytes that the same IPv4 build without Ethernet produces. For every inner protocol, every raw IPv4 payload of less than 44 bytes (longer ones are C44), and when the IPv4 build fails, the Ethernet build fails in the same way.", "quantifier": "every history of builder calls at each level", "why_tests_cant": "unbounded histories; offsets depend on all outer layers", "anchors": ["src/ether/builder.rs: ip", "src/ip/builder.rs: v4", "src/ip/v4/builder.rs: protocol!"]}
{"id": "C50", "title": "A payload can be set at most once and excludes an inner protocol", "statement": "A second payload() call, or udp()/tcp()/icmp()/ip() after payload(), returns an error (AlreadyDefined; InvalidPacket for echo) and never a packet.", "quantifier": "every builder state reached by any history", "why_tests_cant": "unbounded histories", "anchors": ["src/ether/builder.rs", "src/ip/v4/builder.rs", "src/udp/builder.rs", "src/tcp/builder.rs", "src/icmp/echo/builder.rs"]}
{"id": "C51", "title": "Incomplete builders refuse to build", "statement": "build() on ip::Builder, ip::v6::Builder, icmp::Builder, and on echo/timestamp/information builders on which neither request() nor reply() was called, returns InvalidPacket. This holds however ip::v6::Builder is reached (directly, from ip::Builder, behind an Ethernet header), and ip::Builder::with(b)?.v4() is v4::Builder::with(b).", "quantifier": "every builder state reached by any history", "why_tests_cant": "unbounded histories", "anchors": ["src/ip/builder.rs", "src/ip/v6/builder.rs", "src/icmp/builder.rs", "src/icmp/echo/builder.rs: build", "src/icmp/timestamp/builder.rs: build", "src/icmp/information/builder.rs: build"]}
{"id": "C52", "title": "build() never panics", "statement": "build() returns Ok or Err, never panics, for every builder obtained through the public API, including udp/tcp builders that are not inside an IP packet and ether frames around any IPv4 packet.", "quantifier": "every builder state", "why_tests_cant": "panics hide behind unusual but legal call sequences", "anchors": ["src/tcp/builder.rs: prepare", "src/udp/builder.rs: prepare", "src/ether/builder.rs: ip"]}
{"id": "C53", "title": "Packets too large for their length fields are refused", "statement": "build() of a packet whose total length exceeds 65535 returns an error rather than a packet with truncated length fields.", "quantifier": "every payload length", "why_tests_cant": "needs payloads above 64 KiB at every exact boundary", "anchors": ["src/ip/v4/builder.rs: prepare", "src/udp/builder.rs: prepare"]}
{"id": "C54", "title": "Builders give the same packet on a static and on a growable buffer", "statement": "The same sequence of builder calls on a buffer::Slice with enough room and on a buffer::Dynamic produces the same bytes; with too little room the Slice build returns SmallBuffer.", "quantifier": "every builder history, every slice capacity and initial contents", "why_tests_cant": "all capacities and histories", "anchors": ["src/buffer/slice.rs", "src/buffer/dynamic.rs", "src/*/builder.rs"]}
{"id": "C55", "title": "Parsing a whole stack never panics", "statement": "For every byte string, parsing it as Ethernet, its payload as IPv4 (directly), and that payload as TCP, UDP or ICMP and its typed views, never panics, and each inner view lies inside the outer payload.", "quantifier": "every byte string", "why_tests_cant": "fuzz-style totality", "anchors": ["src/ether/packet.rs", "src/ip/v4/packet.rs", "src/udp/packet.rs", "src/tcp/packet.rs", "src/icmp/packet.rs"]}
{"id": "C56", "title": "The size traits bound accepted packets", "statement": "For every accepted packet header::Min <= header size <= header::Max and payload::Min <= payload size <= payload::Max.", "quantifier": "every accepted packet of every protocol", "why_tests_cant": "extremes of the length fields", "anchors": ["src/size.rs", "src/*/packet.rs: sized!"]}
{"id": "C57", "title": "Size traits agree with the slices", "statement": "For every accepted packet of every kind the header size equals header().len(), the payload size equals payload().len(), and as_ref() is header() followed by payload().", "quantifier": "every accepted packet of every protocol", "why_tests_cant": "all packets", "anchors": ["src/icmp/timestamp/packet.rs: split", "src/icmp/previous/packet.rs: split", "src/icmp/parameter_problem/packet.rs: split"]}
{"id": "C58", "title": "A builder's in-progress view shows the values set so far", "statement": "After any history of builder calls (TCP: without flags()), as_packet() returns a view showing the last value given for every header field; for ether, TCP and echo also the payload; timestamp and information builders without request()/reply() give the documented error. (C82 is about the payload of the other views and TCP after flags().)", "quantifier": "every builder history", "why_tests_cant": "unbounded histories", "anchors": ["src/*/builder.rs: as_packet"]}
{"id": "C59", "title": "Checksum verification against IPv4 is total", "statement": "is_valid(ip) returns a bool for every UDP datagram of at least 8 bytes and every TCP segment of 20 to 65535 bytes (of even length, or of odd length on a standard library whose failed Cursor::read_exact does not move the cursor; C60 is about the rest) and every enclosing IPv4 packet. (C83 is about IPv6.)", "quantifier": "every packet and every enclosing IP packet", "why_tests_cant": "all inputs", "anchors": ["src/tcp/mod.rs: checksum", "src/udp/mod.rs: checksum"]}
{"id": "C60", "title": "Odd-length transport checksums do not depend on the standard library version", "statement": "udp::checksum and tcp::checksum of an odd-length packet are total and include the last byte, and TCP builds with a payload of odd length succeed, whether or not a failed Cursor::read_exact moves the cursor to the end of the data.", "quantifier": "every odd-length packet, both cursor behaviours", "why_tests_cant": "needs two toolchains and all contents", "anchors": ["src/tcp/mod.rs: checksum", "src/udp/mod.rs: checksum"]}
{"id": "C61", "title": "Debug formatting reports the right fields and never panics", "statement": "Formatting an accepted packet with {:?} never panics and shows under each label the value of the accessor of that name.", "quantifier": "every accepted packet", "why_tests_cant": "panics only for some header bits", "anchors": ["src/ether/packet.rs: fmt", "src/ip/v4/packet.rs: fmt", "src/udp/packet.rs: fmt", "src/tcp/packet.rs: fmt", "src/icmp/*/packet.rs: fmt"]}
{"id": "C62", "title": "is_valid agrees with the receiver's check of the RFCs", "statement": "is_valid returns true exactly when the one's complement sum of the checksummed bytes (and pseudo header) as received, checksum field included, is the all-ones word, as RFC 791/768/793/792 tell a receiver to verify it, and the stored checksum is not 0xffff; for IPv4 headers with the checksum field inside, UDP and TCP (of even length, or of odd length on a standard library whose failed Cursor::read_exact does not move the cursor; C60 is about the rest), and even-length ICMP messages with a non-zero word outside the checksum.", "quantifier": "every accepted packet (TCP: up to 65535 bytes, C91 is about more) and every enclosing IPv4 packet", "why_tests_cant": "all contents; the corner values of one's complement zero", "anchors": ["src/ip/v4/packet.rs: is_valid", "src/udp/packet.rs: is_valid", "src/tcp/packet.rs: is_valid", "src/icmp/packet.rs: is_valid"]}
{"id": "C63", "title": "Writing through payload_mut changes exactly the payload", "statement": "On an accepted packet (IPv4 and TCP: with a header length of at least five words) overwriting payload_mut() with bytes of the same length succeeds; the packet is still accepted, header() is unchanged, payload() returns the new bytes and no byte outside the payload changed; bytes of another length do not fit the slice.", "quantifier": "every accepted packet of every protocol, every new payload", "why_tests_cant": "all packets and payloads", "anchors": ["src/packet.rs: PacketMut::payload_mut", "src/*/packet.rs: split_mut"]}
{"id": "C64", "title": "buffer::Slice::more grows the current layer", "statement": "more(size) on a buffer::Slice whose current layer is not empty keeps the layer where it is and appends size zero bytes, as buffer::Dynamic does, whenever the total fits.", "quantifier": "every reachable slice buffer and size", "why_tests_cant": "needs all states and sizes", "anchors": ["src/buffer/slice.rs: more"]}
{"id": "C65", "title": "ICMP checksums of odd-length and all-zero messages", "statement": "icmp::checksum pads an odd trailing byte with zero as RFC 792 requires, so that a change of the last byte is detected, and gives 0xffff for a message of zeros, so that a message of zeros with that checksum is_valid().", "quantifier": "every ICMP message", "why_tests_cant": "all lengths and contents", "anchors": ["src/icmp/mod.rs: checksum", "src/icmp/packet.rs: is_valid"]}
{"id": "C66", "title": "UDP's zero-checksum rule", "statement": "A computed UDP checksum of zero is transmitted as 0xffff (RFC 768), is_valid accepts such a datagram, and accepts a datagram whose checksum field is zero (no checksum).", "quantifier": "every datagram and IPv4 header", "why_tests_cant": "one datagram in 65536", "anchors": ["src/udp/mod.rs: checksum", "src/udp/packet.rs: is_valid"]}
{"id": "C67", "title": "IPv4 flags() reports the MF bit", "statement": "On every accepted packet flags() returns, and reports MORE_FRAGMENTS exactly when the MF bit is set.", "quantifier": "every accepted packet", "why_tests_cant": "all flag values in all packets", "anchors": ["src/ip/v4/packet.rs: flags", "src/ip/v4/flag.rs"]}
{"id": "C68", "title": "Header lengths below the fixed header are refused", "statement": "An IPv4 packet with IHL < 5 or a TCP segment with data offset < 5 is not accepted, so that options() never panics on an accepted packet.", "quantifier": "every buffer", "why_tests_cant": "all header lengths", "anchors": ["src/ip/v4/packet.rs: no_payload, options", "src/tcp/packet.rs: new, options"]}
{"id": "C69", "title": "Parsing the empty buffer is an error", "statement": "ip::Packet::new, no_payload and ip::v6::Packet::new return an error on the empty buffer.", "quantifier": "all inputs", "why_tests_cant": "boundary input", "anchors": ["src/ip/packet.rs: new", "src/ip/v6/packet.rs: new"]}
{"id": "C70", "title": "A NoOperation option has no payload", "statement": "The payload() of a yielded single-byte option is empty.", "quantifier": "every option area", "why_tests_cant": "all areas", "anchors": ["src/ip/v4/option.rs: split", "src/tcp/option.rs: split"]}
{"id": "C71", "title": "make_request/make_reply of timestamp and information messages", "statement": "After make_request() is_request() holds, after make_reply() is_reply() holds, and the message is still accepted.", "quantifier": "every accepted message", "why_tests_cant": "all messages", "anchors": ["src/icmp/timestamp/packet.rs: make_request", "src/icmp/information/packet.rs: make_request"]}
{"id": "C72", "title": "Truncated quotes are readable", "statement": "packet() of an ICMP error message parses the quoted IPv4 header for every message that quotes an IPv4 header plus at least eight bytes of its payload, as RFC 792 prescribes.", "quantifier": "every message", "why_tests_cant": "all quotes", "anchors": ["src/icmp/previous/packet.rs: packet"]}
{"id": "C73", "title": "Option iteration: exactly when it ends, repeats or panics", "statement": "With overflow checks, iterating options yields at most as many Ok options as the area has bytes before it ends, reports an error or panics, so a loop that stops at the first error ends; an error is repeated forever without advancing; next() panics exactly on a lone last byte that is neither End nor NOP and, with overflow checks, on a length byte 0; on a yielded option all accessors return, except that header() and payload() panic exactly when the length byte is 0 (possible without overflow checks only).", "quantifier": "every option area, every number of next() calls, both build profiles", "why_tests_cant": "unbounded iteration, all byte strings", "anchors": ["src/ip/v4/packet.rs: OptionIter::next", "src/tcp/packet.rs: OptionIter::next", "src/ip/v4/option.rs", "src/tcp/option.rs"]}
{"id": "C74", "title": "The total length field of a built packet", "statement": "For every IPv4 build that returns a packet, whatever calls were made, the total length field is the length of the packet modulo 65536, hence right exactly when the packet has at most 65535 bytes.", "quantifier": "every builder history with any inner protocol", "why_tests_cant": "unbounded histories and sizes", "anchors": ["src/ip/v4/builder.rs: prepare"]}
{"id": "C75", "title": "Payload-free builds on a static buffer", "statement": "For builder programs without payload calls (Ethernet, IPv4 with any inner protocol, ICMP) a buffer::Slice of any capacity and contents gives the same bytes as buffer::Dynamic when they fit and SmallBuffer when they do not, and the same errors and panics otherwise.", "quantifier": "every payload-free history, every capacity and initial contents", "why_tests_cant": "all capacities and histories", "anchors": ["src/buffer/slice.rs", "src/*/builder.rs"]}
{"id": "C76", "title": "When build() does not panic", "statement": "Ethernet and ICMP programs never panic; an IPv4 program never panics unless it goes through TCP, and through TCP not if no header setter follows flags() and the checksum of the segment is computable; nor does such a program inside Ethernet with raw IPv4 payloads of less than 44 bytes. Whatever values are given, valid or not.", "quantifier": "every builder history", "why_tests_cant": "unbounded histories", "anchors": ["src/*/builder.rs"]}
{"id": "C77", "title": "What IPv4 set_ecn, set_flags and set_offset do exactly", "statement": "On every accepted packet with IHL >= 5: set_ecn(v), v <= 3, keeps the low four DSCP bits and ORs v into ECN; set_flags(f) and set_offset(o) overwrite the whole 16-bit word of flags and fragment offset with the unshifted value; hence each writes exactly its own field under exactly stated conditions.", "quantifier": "every packet and value", "why_tests_cant": "all packets and values", "anchors": ["src/ip/v4/packet.rs: set_ecn, set_flags, set_offset"]}
{"id": "C78", "title": "Where the size traits agree with the slices", "statement": "For accepted ether, IPv4, IPv6, UDP, TCP, ICMP and echo packets header size, payload size and as_ref() agree with header() and payload(); for timestamp, previous and parameter-problem messages never; for information messages exactly at 8 bytes; for redirects exactly if the quoted packet, when it parses, is only a header.", "quantifier": "every accepted packet", "why_tests_cant": "all packets", "anchors": ["src/size.rs", "src/*/packet.rs: sized!"]}
{"id": "C79", "title": "Where the size bounds hold", "statement": "header::Min/Max bound the header size of every accepted packet except IPv4 and TCP with fewer than five header words; payload::Min/Max bound the payload size exactly under the stated conditions for each of the packet types.", "quantifier": "every accepted packet", "why_tests_cant": "extremes of the length fields", "anchors": ["src/size.rs", "src/*/packet.rs: sized!"]}
{"id": "C80", "title": "What Debug formatting shows exactly", "statement": "Formatting an accepted packet panics exactly when it is, or quotes, an IPv4 packet with MF set (options: length byte 0); otherwise it shows, label by label, the stated fields.", "quantifier": "every accepted packet of every type", "why_tests_cant": "all packets", "anchors": ["src/*/packet.rs: fmt", "src/*/option.rs: fmt"]}
{"id": "C81", "title": "In which orders the TCP builder's setters work", "statement": "For every history of TCP calls with at most one payload inside IPv4, build() succeeds if and only if no header setter and no second flags() comes after flags().", "quantifier": "every history", "why_tests_cant": "all orders", "anchors": ["src/tcp/builder.rs", "src/tcp/packet.rs: set_flags"]}
{"id": "C82", "title": "A builder's in-progress view shows the payload", "statement": "as_packet() of an IPv4, UDP or TCP builder shows the payload set so far.", "quantifier": "every builder history", "why_tests_cant": "unbounded histories", "anchors": ["src/ip/v4/builder.rs: as_packet", "src/udp/builder.rs: as_packet", "src/tcp/builder.rs: as_packet"]}
{"id": "C83", "title": "Checksum verification against IPv6 is total", "statement": "is_valid(ip) on TCP and UDP packets returns for every enclosing IPv6 packet.", "quantifier": "every packet", "why_tests_cant": "all inputs", "anchors": ["src/tcp/mod.rs: checksum", "src/udp/mod.rs: checksum"]}
{"id": "C84", "title": "Every burst error of a checksummed packet is detected", "statement": "If the checksum of an IPv4 header, ICMP message, or UDP datagram / TCP segment against its IPv4 header verifies, then after any change confined to 16 consecutive bits (at any bit position, inside the covered bytes, not touching the IPv4 header length) is_valid() is false, unless the 16 bits went from all zeros to all ones or back. The same holds for UDP/TCP when the change is in the source or destination address of the enclosing IPv4 header (misdelivery).", "quantifier": "every valid packet (TCP: up to 65535 bytes), every window of at most 16 bits at any bit position, every change of its contents", "why_tests_cant": "the set of packets, windows and contents is infinite; a test sees a few patterns", "anchors": ["src/ip/v4/packet.rs: is_valid", "src/icmp/packet.rs: is_valid", "src/udp/packet.rs: is_valid", "src/tcp/packet.rs: is_valid"]}
{"id": "C85", "title": "Finalizers added by a program run after the layer's own and before the enclosing layers'", "statement": "b.finalizer().add(f) may be called between any two builder calls on any layer. Whatever finalizers a program adds and wherever, if the builder calls succeed then build() runs, on bytes that do not depend on them: the innermost builder's own finalizer, the finalizers added to it (latest first), the next layer's own finalizer, the finalizers added to that layer, and so on outwards; each exactly once, stopping at the first error, which build() returns. Finalizers added to the outermost builder see the finished packet. If a builder call fails no finalizer runs and the error does not depend on them.", "quantifier": "every buffer, every history of builder calls, every set of finalizers (arbitrary functions) at every position of the history and on every layer", "why_tests_cant": "finalizers are arbitrary closures and positions in the history are unbounded", "anchors": ["src/builder.rs: Finalization, Builder::finalizer", "src/ether/builder.rs: ip", "src/ip/builder.rs: v4", "src/ip/v4/builder.rs: protocol!, prepare, build", "src/udp/builder.rs: prepare, build", "src/tcp/builder.rs: prepare, build", "src/icmp/builder.rs: prepare"]}
{"id": "C86", "title": "Editing the packet under construction is the same as calling the builder", "statement": "builder.as_packet_mut()?.set_x(v)? has the effect of builder.x(v)?: a program that edits the packet under construction through as_packet_mut(), at any points of any layer (Ethernet, IPv4, UDP, TCP, ICMP echo/timestamp/information), mixed with builder calls, has the same outcome (bytes, error or panic) as the program that makes the corresponding builder calls instead. Exceptions: the kind of an ICMP message (C87), and on timestamp and information builders an edit before request()/reply(), which fails with InvalidPacket.", "quantifier": "every history of builder calls and edits on every layer, every value, growable buffer with any payloads, caller's buffer of any size without payloads", "why_tests_cant": "the histories and interleavings are unbounded; a test tries a few", "anchors": ["src/ether/builder.rs: AsPacketMut", "src/ip/v4/builder.rs: AsPacketMut", "src/udp/builder.rs: AsPacketMut", "src/tcp/builder.rs: AsPacketMut", "src/icmp/echo/builder.rs: AsPacketMut", "src/icmp/timestamp/builder.rs: AsPacketMut", "src/icmp/information/builder.rs: AsPacketMut"]}
{"id": "C87", "title": "A message kind chosen on the packet under construction counts", "statement": "After icmp builder .as_packet_mut()?.make_request()? (or make_reply) the builder knows the kind of the message and build() succeeds, as after request().", "quantifier": "every history of calls and edits on an echo, timestamp or information builder", "why_tests_cant": "the histories are unbounded", "anchors": ["src/icmp/echo/builder.rs: build, as_packet_mut", "src/icmp/timestamp/builder.rs: build, as_packet_mut", "src/icmp/information/builder.rs: build, as_packet_mut"]}
{"id": "C88", "title": "Bytes behind a packet do not change what is read", "statement": "If a buffer is accepted as an IPv4 or UDP packet, the same buffer followed by any other bytes (Ethernet padding, the unused end of a receive buffer) is accepted too, and every accessor, header(), payload(), options(), as_ref() and the sizes return the same; so does IPv4's is_valid(). For TCP, which has no length of its own, everything in the header is the same and the bytes go to the payload. In a padded Ethernet frame the IPv4 payload, and with it the whole inner packet and its verification, is the same.", "quantifier": "every accepted packet and frame, every byte string behind it", "why_tests_cant": "the packets and the trailing bytes are unbounded", "anchors": ["src/ip/v4/packet.rs: new, split, as_ref, is_valid", "src/udp/packet.rs: new, split, as_ref", "src/tcp/packet.rs: new, split", "src/ether/packet.rs: split"]}
{"id": "C89", "title": "UDP checksums cover the datagram, not the buffer", "statement": "is_valid(ip) and update_checksum(ip) of a UDP packet cover the bytes the length field says, i.e. as_ref(), also when the buffer goes on behind them.", "quantifier": "every accepted datagram in a longer buffer", "why_tests_cant": "the datagrams and trailing bytes are unbounded", "anchors": ["src/udp/packet.rs: is_valid, update_checksum", "src/udp/mod.rs: checksum"]}
{"id": "C90", "title": "Turning a packet around keeps its checksums", "statement": "Exchanging source and destination address of an IPv4 packet with set_source/set_destination leaves is_valid() as it was; exchanging the ports of a UDP or TCP packet leaves is_valid(ip) as it was when the addresses of ip are exchanged too. An answer made in place needs no new checksums.", "quantifier": "every accepted packet, every enclosing IPv4 header, every size and configuration", "why_tests_cant": "addresses, ports and contents are unbounded combinations", "anchors": ["src/ip/v4/packet.rs: set_source, set_destination, is_valid", "src/udp/packet.rs: set_source, set_destination, is_valid", "src/tcp/packet.rs: set_source, set_destination, is_valid"]}
{"id": "C91", "title": "TCP checksums of segments of any size", "statement": "tcp::checksum, is_valid and update_checksum return the RFC 793 checksum for a segment of any size the buffer holds.", "quantifier": "every segment, without a bound on its size", "why_tests_cant": "no test covers unbounded sizes", "anchors": ["src/tcp/mod.rs: checksum"]}
{"id": "C92", "title": "The bounds of the size traits are attained", "statement": "The minima and maxima the size traits declare are the best possible: for each of the twelve packet types there is an accepted packet whose header, payload and total size (header + payload, the blanket Size) are all at the declared minimum, and for each type that declares a maximum one at the maximum.", "quantifier": "all twelve packet types, every build configuration", "why_tests_cant": "together with C79 this pins the declared bounds from both sides; the largest packets have 65535 bytes", "anchors": ["src/size.rs: Min, Max, Size", "src/*/packet.rs: sized!"]}
{"id": "C93", "title": "The bytes of a packet are a packet", "statement": "What as_ref() returns for an accepted packet starts its buffer, is itself accepted by the same type, and has the same header() and payload() (so that packet.as_packet(), to_owned() of a trimmed packet and copying as_ref() are safe).", "quantifier": "every accepted packet of every type", "why_tests_cant": "the packets are unbounded", "anchors": ["src/*/packet.rs: AsRef, AsPacket, new, split", "src/size.rs: Size"]}
{"id": "C94", "title": "Writing back what an accessor returned changes nothing", "statement": "For every field with an accessor and a setter, calling the setter with the value the accessor returned succeeds and leaves the packet byte for byte as it was.", "quantifier": "every accepted packet (IPv4 and TCP: with at least five header words), every field", "why_tests_cant": "every bit of every packet", "anchors": ["src/ether/packet.rs", "src/ip/v4/packet.rs", "src/udp/packet.rs", "src/tcp/packet.rs", "src/icmp/echo/packet.rs", "src/icmp/timestamp/packet.rs", "src/icmp/information/packet.rs"]}
{"id": "C95", "title": "A packet can be rebuilt from what its accessors return", "statement": "A program that reads every field and the payload of an accepted, valid packet and passes them to the builders gets the same bytes back: for Ethernet frames of any kind; for IPv4 packets without options carrying a UDP datagram, a TCP segment, an echo, timestamp or information message; and for Ethernet frames carrying such packets.", "quantifier": "every accepted packet of the kind with right lengths and checksums", "why_tests_cant": "every value of every header field and payload", "anchors": ["src/*/packet.rs: accessors", "src/*/builder.rs: all setters, build"]}
{"id": "C96", "title": "Unvalidated views: exactly which calls panic", "statement": "On a view made with unchecked() over arbitrary bytes, each accessor returns the value of its header field if the buffer reaches to the end of that field and panics otherwise; header(), payload() and split() succeed exactly if the buffer holds the header its length field announces, and payload() then is what is there up to the total length; each setter stores its field and nothing else, or does not succeed and changes nothing outside its field (and nothing at all, for the setters that go through the header). ip::Packet::unchecked looks at the version nibble only, and panics on an empty buffer or another version. as_ref() on a buffer shorter than its header panics in the debug profile and returns the whole buffer in release.", "quantifier": "every byte string, every value", "why_tests_cant": "every length and content of the buffer", "anchors": ["src/*/packet.rs: unchecked, accessors, setters, split", "src/ip/packet.rs: unchecked"]}
{"id": "C97", "title": "dscp(), ecn(), flags() and offset() on an IPv4 builder are honoured", "statement": "After ecn(v) the built packet has ECN v and the DSCP asked for; after flags(f) it has the flags f and the offset asked for; after offset(o) it has the offset o and the flags asked for.", "quantifier": "every history of builder calls, anything inside the packet", "why_tests_cant": "every order of calls and every value", "anchors": ["src/ip/v4/builder.rs: dscp, ecn, flags, offset", "src/ip/v4/packet.rs: set_dscp, set_ecn, set_flags, set_offset"]}
{"id": "C98", "title": "What dscp(), ecn(), flags() and offset() on an IPv4 builder put on the wire exactly", "statement": "If the build succeeds, the 16-bit word at byte 6 is the argument of the last flags() or offset() call (0 if none), and DSCP and ECN are those of the fold in which dscp(v) replaces the DSCP and ecn(v) clears the two upper DSCP bits and ors v into the ECN.", "quantifier": "every history of builder calls, anything inside the packet", "why_tests_cant": "every order of calls and every value", "anchors": ["src/ip/v4/builder.rs: dscp, ecn, flags, offset, prepare, finalize"]}
{"id": "C99", "title": "The size traits bound and describe options", "statement": "For every IPv4 or TCP option, header_size() and payload_size() lie within the declared minimum and maximum, the bounds are attained, size() is length(), and header(), payload() and as_ref() have those sizes.", "quantifier": "every option the parser accepts", "why_tests_cant": "every length byte and every content", "anchors": ["src/ip/v4/option.rs: sized!, split, as_ref", "src/tcp/option.rs: sized!, split, as_ref", "src/size.rs"]}
{"id": "C100", "title": "A whole frame can be edited in place, layer by layer", "statement": "Parse a frame, set any Ethernet fields, parse payload_mut() as IPv4, set any fields through checked(), copy the IP packet, parse its payload_mut() as UDP, TCP or ICMP echo, timestamp or information and set any fields through checked() (for TCP: any but set_flags, see C27, and an even number of bytes unless std leaves the cursor alone at the end, see C60): nothing fails or panics, the buffer keeps its length, it parses again layer by layer (a timestamp or information message as long as its kind was not changed, see C71), the IPv4 header checksum and the transport checksum (against the edited IP header; for timestamp and information over the 20 resp. 8 bytes of the message, see C105) verify, every field has the last value given, and options, data and trailing bytes are untouched.", "quantifier": "every frame that carries an IPv4 packet with header length >= 20 and a datagram / segment / ICMP message of the three kinds, all histories of setter calls at the three layers", "why_tests_cant": "the histories and packets are unbounded, and each layer's edit happens inside the slice of the layer above", "anchors": ["src/packet.rs: PacketMut::payload_mut", "src/ip/v4/packet.rs: to_owned, checked", "src/ip/packet.rs: From", "src/udp/packet.rs: checked", "src/tcp/packet.rs: checked", "src/icmp/echo/packet.rs: checked"]}
{"id": "C101", "title": "Exactly when changing IP addresses invalidates a transport checksum", "statement": "A UDP datagram or TCP segment that verifies against one IPv4 header verifies against another exactly if the two headers' addresses have the same sum of 16-bit words modulo 65535; so after IP address edits through checked() the inner checksum is stale exactly when that sum changed, although the IP header verifies.", "quantifier": "every datagram/segment (TCP: up to 65535 bytes), every pair of headers, every history of IP setter calls", "why_tests_cant": "an equivalence over all addresses and contents; collisions of the checksum are part of the claim", "anchors": ["src/udp/packet.rs: is_valid, checksum", "src/tcp/packet.rs: is_valid", "src/ip/v4/packet.rs: checked"]}
{"id": "C102", "title": "Built packets are byte for byte the RFC encodings", "statement": "What build() returns on a fresh owned buffer is exactly the byte string the RFCs prescribe for the fields asked for, checksums and lengths included: an IPv4 packet without options (type of service and fragment word as in C98) around nothing, a UDP datagram, a TCP segment (data offset 5, the flags asked for) or an ICMP echo/timestamp/information message, alone or in an Ethernet frame (destination, source, 0x0800, packet). Excluded, because there the code differs: a raw IPv4 payload (C44), packets above 65535 bytes (C53), odd-length data where std advances the cursor at the end (C60) and odd-length echo data (C65), a UDP sum of zero (C66), an all-zero echo reply (C65), and TCP header setters called after flags(), which lose the data offset or fail (C47, C81).", "quantifier": "every history of builder calls at every layer, every payload", "why_tests_cant": "equality of whole byte strings for unboundedly many histories and payloads; tests compare a handful of fixtures", "anchors": ["src/ip/v4/builder.rs: Builder", "src/udp/builder.rs: Builder", "src/tcp/builder.rs: Builder", "src/icmp/echo/builder.rs: Builder", "src/icmp/timestamp/builder.rs: Builder", "src/icmp/information/builder.rs: Builder", "src/ether/builder.rs: Builder"]}
{"id": "C103", "title": "A checked() session depends on the values given, not on order, repetition, grouping or the old checksum", "statement": "Two sessions packet.checked(..).set_..() that end in the same field values leave byte-identical packets, whatever the order and number of calls and whatever checksum (or overwritten fields) the packets had before; two sessions one after the other are the same as one session with all the calls; and is_valid() is true exactly if update_checksum() (for ICMP: an empty session) would change nothing. IPv4 dscp/ecn count with what C77 says they do; TCP histories without set_flags (C27) and with the lengths of C28.", "quantifier": "every accepted IPv4, UDP, TCP (up to 65535 bytes), ICMP echo/timestamp/information packet, every pair of histories", "why_tests_cant": "quantifies over pairs of unbounded histories and over the previous contents of the checksum", "anchors": ["src/ip/v4/packet.rs: checked, update_checksum, is_valid", "src/udp/packet.rs: checked, update_checksum, is_valid", "src/tcp/packet.rs: checked, update_checksum, is_valid", "src/icmp/packet.rs: Checked", "src/icmp/echo/packet.rs: checked", "src/icmp/timestamp/packet.rs: checked", "src/icmp/information/packet.rs: checked"]}
{"id": "C104", "title": "What payload() does on a static buffer, exactly", "statement": "A builder program whose last call is payload(v), v not empty, run on Slice::new(storage) of any size and contents, ends in exactly one of three ways, decided by the sizes alone. With U bytes taken by the headers (the last of them L bytes long): SmallBuffer if the storage has no byte left behind U; a panic if place U + L + 2(n-1) is not inside the storage; otherwise the packet is byte for byte the one a growable buffer gives for the payload in which byte i of v sits at place L + 2i and every other place holds what the storage held before (cut to n bytes). Ethernet, UDP/IPv4 and TCP/IPv4, alone and in Ethernet, build that packet; a raw IPv4 payload and an ICMP echo payload (alone, in IPv4, in Ethernet) never build anything: SmallBuffer or a panic.", "quantifier": "every storage, every payload-free history of the other calls that builds on a growable buffer, every non-empty payload, debug and release builds", "why_tests_cant": "quantifies over all storages, sizes, payload lengths and histories", "anchors": ["src/buffer/slice.rs: Slice::more, next, data_mut, into_inner", "src/ether/builder.rs: payload", "src/ip/v4/builder.rs: payload, build", "src/udp/builder.rs: payload, build", "src/tcp/builder.rs: payload, build", "src/icmp/echo/builder.rs: payload, build"]}
{"id": "C105", "title": "Editing a generic ICMP packet through its typed views", "statement": "A checked() session through echo_mut(), timestamp_mut() or information_mut() of an icmp::Packet of that kind succeeds and is visible in the generic packet: code() and everything behind the message are as before, kind and fields have the last values given. Afterwards icmp::Packet::is_valid() is true for echo; for timestamp and information, whose guards sum only 20 and 8 bytes, it is true exactly if the complete 16-bit words behind the message add up to zero in one's complement (in particular if there are none). On a message of another kind or too short the view fails with InvalidPacket or SmallBuffer and nothing changes. No sequence of sessions panics or changes the length, the code or bytes from 20 on.", "quantifier": "every ICMP packet, every finite sequence of sessions and setter calls", "why_tests_cant": "quantifies over all packets, trailing bytes and histories", "anchors": ["src/icmp/packet.rs: echo_mut, timestamp_mut, information_mut, is_valid, Checked::drop", "src/icmp/echo/packet.rs", "src/icmp/timestamp/packet.rs", "src/icmp/information/packet.rs"]}
{"id": "C106", "title": "header_mut() and as_mut() are write access to exactly header() and as_ref()", "statement": "For every accepted packet of every type, the bytes header_mut() gives access to are those header() returns: they start the buffer, copying as many bytes there changes no other byte, copying another number panics and changes nothing, and if the fields that delimit header and payload keep their values header() then returns what was written and payload() is as before. The same for as_mut() and as_ref(). Replacing the bytes of a packet by those of another accepted packet of the same length (Ethernet, IPv4, UDP, TCP, ICMP, echo) gives a packet that is accepted and has the views of the other one, whatever follows it in the buffer.", "quantifier": "every accepted packet of every type, all bytes written", "why_tests_cant": "every packet and every content written", "anchors": ["src/packet.rs: PacketMut", "src/*/packet.rs: split_mut, AsMut"]}
{"id": "C107", "title": "Builders work on any buffer that does what trait Buffer documents", "statement": "Buffer is a public trait, so a program may give the builders a buffer type of its own. If that type meets the documented contract with a capacity (after every history of next, more, clear and writes through data_mut that stays within the capacity it shows the stack of layers, and a request beyond it fails in one fixed way), then every program of builder calls (Ethernet, IPv4, Ethernet with IPv4, and inside UDP, TCP and ICMP, also the standalone ICMP, UDP and TCP builders) gives on it the outcome it gives on buffer::Dynamic, or is refused; a packet that Dynamic builds is built, byte for byte, exactly if it is no longer than the capacity. Two such buffers of equal capacity and equal refusal give equal outcomes. All of this also holds when both buffers were used before, by the same calls, so that the packet is built behind the layers already there. Dynamic meets the contract; buffer::Slice would if more() did not move the offset.", "quantifier": "every buffer type and state meeting the contract, every capacity, every program of builder calls with all arguments and payloads", "why_tests_cant": "the buffer type, the history and the arguments are unbounded", "anchors": ["src/buffer/mod.rs: Buffer", "src/*/builder.rs: with, build", "src/buffer/slice.rs: more"]}
{"id": "C108", "title": "An option parsed on its own, and writes through it", "statement": "tcp::Option::new and ip::v4::Option::new return for every buffer: SmallBuffer for the empty buffer and when the length byte exceeds the buffer, otherwise the option. On an accepted option whose length is not 0, header_mut(), payload_mut() and as_mut() are write access to exactly the bytes of header(), payload() and as_ref(), all of them inside the option, and writing a payload leaves the option accepted with the same header.", "quantifier": "every buffer, every option of either kind, all bytes written", "why_tests_cant": "the buffers and the bytes written are unbounded", "anchors": ["src/tcp/option.rs: Option::new, as_mut, split_mut", "src/ip/v4/option.rs: Option::new, as_mut, split_mut"]}
{"id": "C109", "title": "Builders nest behind layers the program wrote itself", "statement": "Let the buffer already hold layers. A builder program that writes its own network layer (Ethernet, IPv4, Ethernet and IPv4, ICMP) builds behind them exactly the packet it builds on an empty buffer::Dynamic, or ends in the same error or panic; on any other buffer that meets the contract of C107 the same if both fit. On buffer::Slice a program without payloads gives the packet if the storage has room for both and SmallBuffer otherwise, and ends in the same error or panic, or in SmallBuffer before. For udp::Builder and tcp::Builder without a payload the same in comparison with a Dynamic that holds the same layers. udp::Builder and tcp::Builder behind a layer that ip::v4::Packet::no_payload accepts build the datagram or segment asked for, with a checksum that is right for the addresses of that layer (TCP: flags set last, even length or a std whose cursor stays put). Behind any layer whose version is not 4 they answer InvalidPacket, or panic if there is no layer or its version is 6.", "quantifier": "every buffer history, every builder call history (payload at most once for UDP and TCP), every contract buffer", "why_tests_cant": "the layers already written, the call histories and the payloads are unbounded", "anchors": ["src/builder.rs: Build::with", "src/udp/builder.rs: Builder::with, prepare, build", "src/tcp/builder.rs: Builder::with, prepare, build", "src/ip/v4/builder.rs", "src/ether/builder.rs", "src/icmp/builder.rs", "src/buffer/dynamic.rs", "src/buffer/slice.rs"]}
{"id": "C110", "title": "Exactly which changes a checksum misses", "statement": "is_valid() of an IPv4 header, an ICMP message, or a UDP datagram / TCP segment against an IPv4 header is true exactly if the 16-bit words covered sum to 0 modulo 65535 and the stored checksum is not 0xffff. So a packet that verifies, changed in any way that keeps its length, its checksum field and (IPv4) its header length, still verifies exactly if that sum is the same modulo 65535: any reordering of 16-bit words is missed, and a field set to another value without the checked() guard is missed exactly if the two values are the same modulo 65535 (for fields narrower than 16 bits: if they are equal; for 16-bit fields: or one is 0 and the other 0xffff). This is stated for every setter of the IPv4, UDP, TCP, echo, timestamp and information packets.", "quantifier": "every packet, every change of it, every setter and value", "why_tests_cant": "the packets, the changes and the values are unbounded", "anchors": ["src/ip/v4/packet.rs: is_valid, setters", "src/ip/v4/mod.rs: checksum", "src/udp/packet.rs: is_valid, setters", "src/udp/mod.rs: checksum", "src/tcp/packet.rs: is_valid, setters", "src/tcp/mod.rs: checksum", "src/icmp/packet.rs: is_valid", "src/icmp/mod.rs: checksum"]}
{"id": "C111", "title": "Writing with bytes behind a packet, and through as_packet_mut() of a packet", "statement": "Bytes behind an accepted packet play no part in a setter call on it (Ethernet, IPv4, UDP, TCP, ICMP echo, timestamp, information) nor in an IPv4 checked() session with a legal header length: outcome and the bytes of the packet are what they are without them, and they stay as they were. packet.as_packet_mut() parses the packet's own bytes again; writing through it does what the same calls do on the packet (anything for Ethernet, TCP, ICMP and echo; setters and checked() sessions for IPv4; setters for UDP). A checked() session through as_packet_mut() of a UDP packet leaves a checksum that is right for exactly the datagram, whatever is behind it in the buffer, which a session on the packet itself does not (C89).", "quantifier": "every accepted packet, all bytes behind it, every setter call and every session", "why_tests_cant": "the packets, the bytes behind and the histories are unbounded", "anchors": ["src/packet.rs: AsPacketMut", "src/ether/packet.rs: as_packet_mut, setters", "src/ip/v4/packet.rs: as_packet_mut, checked, setters", "src/udp/packet.rs: as_packet_mut, checked, setters", "src/tcp/packet.rs: as_packet_mut, setters", "src/icmp/echo/packet.rs: setters", "src/icmp/timestamp/packet.rs: setters", "src/icmp/information/packet.rs: setters"]}
{"id": "C112", "title": "Exactly which packets the builders can produce", "statement": "The set of packets that builder calls can produce is known exactly, in both directions. IPv4 with UDP inside: some calls build p (of at most 65535 bytes) if and only if p is accepted, without options, exactly as long as its total length says, with a right header checksum, protocol UDP, and its payload is an accepted datagram exactly as long as its length field says whose is_valid() is true. TCP: the same with a segment without options and with zero reserved bits. ICMP echo, timestamp and information messages, alone or in IPv4: code 0, is_valid() true, and exactly 20 or 8 bytes for the last two. IPv4 alone without a payload call: every valid 20 byte header. Ethernet alone: every accepted frame. A whole frame: an accepted frame with protocol IPv4 around a packet the inner builders can build. So nothing outside these sets (IPv4 or TCP options, a UDP checksum of zero, other ICMP kinds) can be built, and everything inside can.", "quantifier": "every byte string up to 65535 bytes (frames and messages alone up to a quarter of the address space), all histories of builder calls", "why_tests_cant": "both directions quantify over unboundedly many histories: that none builds a given packet, and that for every packet in the set one does", "anchors": ["src/ether/builder.rs: Builder", "src/ip/v4/builder.rs: Builder, prepare, Build", "src/udp/builder.rs: Builder", "src/tcp/builder.rs: Builder", "src/icmp/echo/builder.rs: Builder", "src/icmp/timestamp/builder.rs: Builder", "src/icmp/information/builder.rs: Builder", "src/udp/packet.rs: is_valid", "src/tcp/packet.rs: is_valid", "src/ip/v4/packet.rs: is_valid"]}
{"id": "C113", "title": "Exactly which packets editing can reach", "statement": "The set of packets that checked() sessions can turn an accepted packet b into is known exactly, in both directions. IPv4 (header length at least 5): b' with the same length, version and header length, total length, options and payload, no ECN bit of b cleared (set_ecn only adds bits), and is_valid() true; any value of every other field can be reached. UDP: same length, length field and payload, and is_valid() true. TCP: same length, data offset, reserved bits, flags, options and payload, and is_valid() true, so no session that ends changes the flags (C27). ICMP echo, timestamp and information: same length, code and bytes behind the message, the kind is the old one or echo request or reply (C71), and is_valid() true (for the last two of the first 20 resp. 8 bytes). Ethernet, which has no checksum: the setters reach exactly the frames with the same length and payload.", "quantifier": "all accepted packets b, all byte strings b', all histories of setter calls (refused ones included)", "why_tests_cant": "both directions quantify over unboundedly many histories: that none reaches a given packet, and that for every packet in the set one does", "anchors": ["src/ether/packet.rs: set_destination, set_source, set_protocol", "src/ip/v4/packet.rs: Checked", "src/udp/packet.rs: Checked", "src/tcp/packet.rs: Checked, set_flags", "src/icmp/echo/packet.rs: Checked", "src/icmp/timestamp/packet.rs: Checked", "src/icmp/information/packet.rs: Checked"]}
{"id": "C114", "title": "Editing accepted IPv4 packets whose header length is below 5", "statement": "ip::v4::Packet::new (and no_payload) accept a 20-byte packet whose header length field is 0 to 4 words. On such a packet (and on every other accepted one) the setters behave as follows. set_dscp, set_ecn and set_id always work; set_flags and set_offset need a header length of at least 2, set_ttl and set_protocol 3, set_source 4, set_destination 5. A setter whose field is outside the header panics and changes nothing; every other call does exactly what it does to a packet with a legal header length. A checked() session on an accepted packet panics exactly if the header length is below 3 (the checksum is outside the header) or some setter that is called needs more; otherwise it ends, is_valid() is then true, and every field has its last value as in C19. In both cases the length is kept and the bytes are still an accepted packet.", "quantifier": "all byte strings accepted by no_payload, hence by new; all setter calls; all histories of setter calls in a checked() session; both build profiles", "why_tests_cant": "the header length is an arbitrary field of the input and the histories are unbounded; a test fixes both", "anchors": ["src/ip/v4/packet.rs: new, no_payload, set_flags, set_offset, set_ttl, set_protocol, set_source, set_destination, checked, Checked", "src/packet.rs: header_mut"]}
{"id": "C115", "title": "Editing received bytes of any contents as a frame", "statement": "A program that parses any byte string as an Ethernet frame, makes setter calls, parses the payload as an IPv4 packet and edits it through checked(), and parses its payload as a UDP, TCP or ICMP packet and edits that through checked(ip), ends as follows. The buffer always keeps its length (for TCP: unless it panics). A buffer too short for a frame: SmallBuffer, nothing changed. The payload refused by ip::v4::Packet::new: that constructor's error, the Ethernet edits are in place and the payload is untouched. The inner payload refused by the transport constructor (IPv4 header length at least 5): that error, Ethernet and IPv4 edits in place, the IPv4 checksum right, the inner payload untouched. All three accepted: it succeeds (fields and checksums as in C100) unless it panics. It panics, for UDP and ICMP, exactly if the payload is accepted as IPv4 and its header length is below 3 or below what a setter that is called needs (C114); for TCP (with legal IPv4 header lengths) exactly if the accepted segment has a data offset below 5 or set_flags is called.", "quantifier": "all byte strings, all histories of setter calls at the three layers, the five transports; for TCP with odd lengths only a std that leaves the cursor alone (C60)", "why_tests_cant": "the received bytes are arbitrary and the panics depend on fields of nested layers", "anchors": ["src/ether/packet.rs: new", "src/ip/v4/packet.rs: new, checked", "src/udp/packet.rs: new, checked", "src/tcp/packet.rs: new, checked", "src/icmp/echo/packet.rs: new, checked", "src/icmp/timestamp/packet.rs: new, checked", "src/icmp/information/packet.rs: new, checked", "src/packet.rs: PacketMut::payload_mut"]}
{"id": "C116", "title": "Editing accepted TCP segments whose data offset is below 5", "statement": "tcp::Packet::new accepts a 20-byte segment whose data offset is 0 to 4 words. On an accepted segment of any data offset a setter whose field is inside the header writes exactly its field; if the header ends where the field begins it returns an Io error (set_flags panics instead); if the header ends before that it panics. In the last two cases nothing changes. A checked(ip) session on an accepted segment with a data offset below 5 panics, whatever is called, whatever the IP packet is. For an IPv4 packet and a segment of at most 65535 bytes a session panics exactly if the data offset is below 5 or set_flags is called.", "quantifier": "all byte strings accepted by new, all setter calls, all histories of setter calls in a checked(ip) session, all IP packets; both build profiles", "why_tests_cant": "the data offset is an arbitrary field of the input and the histories are unbounded", "anchors": ["src/tcp/packet.rs: new, set_source, set_destination, set_sequence, set_acknowledgment, set_flags, set_window, set_pointer, update_checksum, checked, Checked"]}
{"id": "C117", "title": "A panic while a checked() guard is alive", "statement": "The thread may panic at any point while a checked() guard is alive, in the user's own code between two setter calls or in a setter; unwinding then drops the guard. For IPv4 (header length long enough for the calls, C114), UDP, TCP (no set_flags, data offset at least 5) and ICMP echo, timestamp and information: whatever calls were made before the panic, the bytes left behind are those a finished session of exactly these calls leaves, so is_valid() is true and no edit is half done. A setter that panics on an IPv4 packet of header length 3 or 4 leaves the packet as a session of the calls before it. Where the guard's own drop panics, a panic while the guard is alive aborts the process instead: IPv4 with a header length below 3, exactly if the user's code or a setter panics; TCP after set_flags (C27), exactly if the user's code panics or any setter other than set_source is called after it, while otherwise the thread panics, and the checksum is not updated; TCP with a data offset below 5, whenever the user's code panics.", "quantifier": "all accepted packets, all histories of setter calls before the panic (every crash point), both build profiles; panic strategy unwind", "why_tests_cant": "every point at which a panic can happen, for every history and packet; and a process abort ends the test runner", "anchors": ["src/ip/v4/packet.rs: Checked, Drop", "src/udp/packet.rs: Checked, Drop", "src/tcp/packet.rs: Checked, Drop, set_flags", "src/icmp/packet.rs: Checked, Drop"]}
{"id": "C118", "title": "Building into lent storage touches only the packet", "statement": "A packet built in a caller's byte slice (buffer::Slice) occupies the start of it; once it is dropped the caller has the whole slice back. The bytes behind the packet should be as they were. That holds for every program that hands over no payload: Ethernet, IPv4, UDP, TCP and ICMP builders, alone or nested, with any calls in any order. It fails with a payload: on Ethernet frames, UDP and TCP (the only programs with a payload that can succeed on a slice, C104) byte i of the payload is written at place used + L + 2*i of the slice, where used is the length of the packet so far and L that of the header on top, so the last byte of every payload lands behind the packet; behind the packet, every other byte of the slice is as it was.", "quantifier": "all storages, all histories of builder calls (the payload call last), all payloads, both build profiles", "why_tests_cant": "every storage content and length, every call history; a test looks at the packet it got back, not at the memory behind it", "anchors": ["src/buffer/slice.rs: next, more, into_inner, data_mut", "src/ether/builder.rs: payload, build", "src/udp/builder.rs: payload, build", "src/tcp/builder.rs: payload, build", "src/ip/v4/builder.rs: build", "src/icmp/*/builder.rs: build"]}
{"id": "C119", "title": "Calls after payload() on a static buffer are honoured", "statement": "A builder's calls may come in any order, so a field set after payload() should be in the packet as if it had been set before. On a growable buffer that is so (C42, C45, C46). On a caller's byte slice it is not: whatever setters follow a non-empty payload(v), if the packet is built at all then it is byte for byte the packet of the program without these later calls (with C104's misplaced payload), the packet's last byte excepted, which a later setter may overwrite. Raw IPv4 payloads and echo payloads are never built on a slice, whatever calls follow.", "quantifier": "all storages, all calls before and after the payload, all non-empty payloads, both build profiles; Ethernet, UDP, TCP, raw IPv4 and echo builders, alone, in IPv4 and in Ethernet", "why_tests_cant": "every call history and storage content; the crate's tests give the payload last or use a growable buffer", "anchors": ["src/buffer/slice.rs: more, data_mut", "src/ether/builder.rs: payload, source, destination, protocol", "src/udp/builder.rs: payload, source, destination", "src/tcp/builder.rs: payload and setters", "src/ip/v4/builder.rs: payload and setters", "src/icmp/echo/builder.rs: payload and setters"]}
{"id": "C120", "title": "Checksums agree with incremental updates (RFC 1624)", "statement": "Routers and address translators do not sum a packet again, they patch its checksum for the words they changed, by equation 3 of RFC 1624. This crate agrees with them: of any two packets of one length that the crate accepts as valid (IPv4 headers; ICMP messages; UDP datagrams and TCP segments, each against its own IPv4 header), the stored checksum of one is the stored checksum of the other patched for the words that differ, pseudo header included. So checked().set_ttl(v) on a valid packet stores what a router's patch for the time-to-live word gives, and checked().set_source(address) with checked().set_source(port) stores what an address translator's patches for the two address words and the port give, in the IPv4 header and in the UDP or TCP header.", "quantifier": "all pairs of packets the crate reports valid (TCP of 65535 bytes or less, and of even length where a Cursor advances at the end of its input), all new times to live, addresses and ports, both build profiles", "why_tests_cant": "it relates every pair of packets, and ones' complement has two zeros: agreement on samples says nothing about the corner where a patch gives 0xffff instead of 0", "anchors": ["src/ip/v4/packet.rs: is_valid, checked, set_ttl, set_source", "src/ip/v4/mod.rs: checksum", "src/icmp/packet.rs: is_valid", "src/udp/packet.rs: is_valid, checked, set_source", "src/tcp/packet.rs: is_valid, checked, set_source"]}
{"id": "C121", "title": "A release build does what a debug build does, unless the debug build panics", "statement": "Compiling with or without overflow checks changes nothing but panics. Every operation on packets (checksums, validity, sizes, views, Debug text, option iteration, guards and nested editing sessions) and every program of builder calls, on buffer::Dynamic, on buffer::Slice or on any buffer whose own operations agree, either panics in the debug build or ends in the release build with the same result and the same bytes. So testing a debug build tests the release build, wherever the test does not panic. On accepted packets, and for sane programs on a fresh Dynamic, there is no difference at all; the builds do differ, for example, on TCP segments whose 32-bit sum overflows, options that claim length 0, unchecked packets shorter than their header and buffers asked for more than there are addresses.", "quantifier": "all byte strings, all editing sessions, all programs of builder calls, all buffers whose operations agree, both behaviours of Cursor at the end of its input, 32-bit and 64-bit targets", "why_tests_cant": "a test suite runs in one profile; that the other profile gives the same bytes for every input where the first does not panic is a statement about pairs of runs over all inputs", "anchors": ["src/ip/v4/mod.rs: checksum", "src/tcp/mod.rs: checksum", "src/udp/mod.rs: checksum", "src/tcp/packet.rs: OptionIter::next", "src/ip/v4/packet.rs: OptionIter::next", "src/tcp/option.rs: length", "src/ip/v4/option.rs: length", "src/size.rs: Size::size", "src/packet.rs: AsPacket, AsPacketMut", "src/buffer/dynamic.rs: next, more", "src/buffer/slice.rs: next, more", "src/builder.rs: Builder, build"]}
{"id": "C122", "title": "payload takes any iterator, asks it no more than it needs and always comes back", "statement": "The payload method of the Ethernet, IPv4, UDP, TCP and ICMP echo builders takes any iterator over bytes, one of the user's own included, which may go on for ever, panic, or say something else after it has ended. An iterator that gives the bytes of a list and ends does what the list does, on every buffer and in every state of the builder. payload succeeds only if the iterator ended, and then with all its bytes and no others; it has then asked it once for every byte and once more, and never asks again after None, so only the answers it asked for matter. A panic of the iterator comes through, unless a byte before it was already refused. A builder that has a payload refuses without touching the iterator. On a buffer that meets the contract of trait Buffer with room for n more bytes the call is over after at most n + 1 questions, even if the iterator is endless, and then fails the way the full buffer does at the first byte too many; on buffer::Slice, in whatever state earlier failed calls left it, it is over after at most one question more than there are unused bytes. The release build asks the same questions and ends the same way unless the debug build panics.", "quantifier": "all iterators (every sequence of answers, finite, endless or panicking), all five builders in every state, all buffers for the comparison with lists, all buffers meeting the contract and every history on buffer::Slice for termination, both build profiles", "why_tests_cant": "tests pass finite vectors; termination on endless iterators, laziness and panic propagation quantify over infinite sequences of answers given by the user's code", "anchors": ["src/ether/builder.rs: Builder::payload", "src/ip/v4/builder.rs: Builder::payload", "src/udp/builder.rs: Builder::payload", "src/tcp/builder.rs: Builder::payload", "src/icmp/echo/builder.rs: Builder::payload", "src/buffer/slice.rs: more", "src/buffer/dynamic.rs: more"]}
{"id": "C123", "title": "32-bit and 64-bit targets do the same, unless the 32-bit debug build panics", "statement": "The width of usize changes nothing but panics. Every operation on packets (checksums, validity, sizes, views, Debug text, option iteration, guards and nested editing sessions), every payload iterator and every program of builder calls, on buffer::Dynamic, on buffer::Slice or on any buffer whose own operations agree, either panics in a debug build for a 32-bit target or ends in every other build, with or without overflow checks, for a 32-bit or a 64-bit target, with the same result and the same bytes. So a program that does not panic in the 32-bit debug build behaves the same in every two builds. Checksums (of TCP segments up to 131000 bytes), all views of accepted packets shorter than 2^32 bytes and programs on a fresh Dynamic with payloads up to 2^30 bytes are the same in all builds without exception. The targets do differ when asked for more than 2^31 bytes (only the 64-bit target has them) and when a request to buffer::Slice ends beyond 2^32 (refused on a 64-bit target, panic on a 32-bit one in both profiles).", "quantifier": "all byte strings, all editing sessions, all programs of builder calls, all iterators, all buffers whose operations agree, both profiles and both widths of the other build, both behaviours of Cursor at the end of its input", "why_tests_cant": "a test suite runs on one target; that every other target gives the same bytes for every input where this one does not panic is a statement about pairs of runs over all inputs, and the inputs that differ need gigabytes", "anchors": ["src/buffer/dynamic.rs: next, more", "src/buffer/slice.rs: next, more, data", "src/size.rs: Size::size", "src/packet.rs: AsPacket, AsPacketMut", "src/tcp/option.rs: length", "src/ip/v4/option.rs: length", "src/tcp/builder.rs: build", "src/builder.rs: Builder, build"]}
{"id": "C124", "title": "Comparing, cloning and reusing buffers", "statement": "Two buffer::Dynamic compare equal exactly if into_inner(), offset() and length() agree; after any two histories of next, more, clear and writes, exactly if the bytes below the current layer and the bytes of the current layer are the same (how the lower bytes are divided into layers and what was there before a clear does not matter). Two buffer::Slice compare equal exactly if in addition the bytes of the storage that are not in use are the same, so two static buffers that show the same can compare unequal. A clone compares equal; every program gives on a clone what it gives on the original, on a cleared Dynamic what it gives on a new one, and on a cleared Slice what it gives on a new one over the storage as the earlier use has left it.", "quantifier": "all pairs of histories of buffer calls, all storages, all programs of builder calls", "why_tests_cant": "histories and storages are unbounded and the claim is about pairs of them", "anchors": ["src/buffer/dynamic.rs: Buffer (derive Clone, Eq, PartialEq, Default), clear", "src/buffer/slice.rs: Buffer (derive Eq, PartialEq), clear"]}
{"id": "C125", "title": "Builder::default()", "statement": "default() of every builder never panics and is with(Dynamic::new()): a chain of calls that starts from it is the program that starts from with(Dynamic::new()), in every build. A udp::Builder from default() never builds: two payloads are AlreadyDefined, everything else panics in build() for lack of an IP header; a tcp::Builder from default() never gives a packet either; the IP, IPv6 and ICMP builders answer InvalidPacket.", "quantifier": "every history of builder calls (payloads up to a quarter of the address space), every build", "why_tests_cant": "call histories and payloads are unbounded", "anchors": ["src/ether/builder.rs: Default", "src/ip/builder.rs: Default", "src/ip/v4/builder.rs: Default", "src/ip/v6/builder.rs: Default, build", "src/udp/builder.rs: Default, build", "src/tcp/builder.rs: Default, build", "src/icmp/builder.rs: Default, build", "src/icmp/echo/builder.rs: Default", "src/icmp/timestamp/builder.rs: Default", "src/icmp/information/builder.rs: Default"]}
{"id": "C126", "title": "The flag types are sets of the named control bits", "statement": "A value of tcp::flag::Flags is the set of the nine named flags it contains, a value of ip::v4::flag::Flags the set of its two: equal exactly if they contain the same names; |, &, -, ^, !, insert, remove, toggle, set, collect, contains, intersects, is_empty, is_all, empty and all are the operations on sets; from_bits accepts exactly the words without other bits. tcp::Packet::flags() contains a name exactly if the bit that RFC 793, 3168 and 3540 give that name is set in the header; set_flags(f), and flags(f) on a builder, set in the header exactly the bits of the names f contains. (What ip::v4 does with its flags on the wire is C14, C67, C77 and C98.)", "quantifier": "all flag values, all 16-bit words, all segments of at least 20 bytes, all accepted segments, all histories of builder calls of C46", "why_tests_cant": "set laws over all pairs of values and all names; the wire claims range over all segments and programs", "anchors": ["src/tcp/flag.rs: Flags", "src/ip/v4/flag.rs: Flags", "src/tcp/packet.rs: flags, set_flags", "src/tcp/builder.rs: flags"]}
{"id": "C127", "title": "A built packet is recognised in the ICMP error that quotes it", "statement": "A program that sent a UDP, TCP or ICMP echo packet built with this crate and receives an ICMP error (destination unreachable, source quench, redirect, time exceeded, parameter problem) quoting it, as the routers on the way left it (type of service, time to live and header checksum may differ) and cut anywhere from 28 bytes on or followed by more bytes, can open the error with the typed view its type calls for and find out which packet it was: the payload, looked at with unchecked views, shows the identification, addresses, protocol and ports (TCP: and sequence number; echo: identifier and sequence number) it had asked for. packet() succeeds exactly if the packet is quoted completely (see C72), and then gives the whole inner packet, still valid.", "quantifier": "all programs of C45, C46 and C48 (echo), all error headers, all changes routers make, all cuts and trailing bytes", "why_tests_cant": "unbounded programs, payloads and quotes", "anchors": ["src/icmp/previous/packet.rs: packet, split", "src/icmp/redirect_message/packet.rs: packet, split", "src/icmp/parameter_problem/packet.rs: packet, split", "src/ip/v4/packet.rs", "src/udp/packet.rs", "src/tcp/packet.rs", "src/icmp/echo/packet.rs"]}
{"id": "C128", "title": "Routers written with this crate", "statement": "A router that parses a packet with ip::v4::Packet::new, drops it unless is_valid() and ttl() > 1, and else counts the time to live down through checked() never panics on anything it receives whose header, if accepted, has at least 20 bytes. A valid packet with time to live t passes exactly t - 1 such routers in a row: behind n < t of them it is valid, has time to live t - n, differs in nothing but that byte and the header checksum, and its payload and the verification of the UDP or TCP packet inside are as before; the t-th drops it. So a UDP or TCP packet built with this crate arrives as it was asked for, and what any of the routers quotes of it is recognised as in C127.", "quantifier": "all valid packets, all numbers of routers, all programs of C45 and C46; for panics all byte strings", "why_tests_cant": "induction over the number of routers, all packets", "anchors": ["src/ip/v4/packet.rs: new, is_valid, ttl, checked, set_ttl", "src/ip/v4/mod.rs: checksum"]}
{"id": "C129", "title": "Exactly when a builder program fails, and with what", "statement": "Whether a program of builder calls on a growable buffer ends in a packet, an error or a panic, and which error, can be read off the calls: it is decided by the first faulty call, and if there is none the build succeeds. Faulty are: a second payload of one builder (AlreadyDefined; InvalidPacket for an ICMP echo), a DSCP above 63 or an ECN above 3 (InvalidValue), entering an inner protocol after a payload (AlreadyDefined), building an ICMP message without a kind (InvalidPacket) and, as defects of the code, a TCP header setter after flags() (C47: an I/O error from source(), else a panic), build() of a TCP segment with a payload of odd length with a std that moves the cursor in a failed read_exact (C60: panic), build() of a TCP segment whose 16-bit words with the pseudo header sum to 2^32 or more in a build with overflow checks (C91: panic), and build() of a frame around an IPv4 packet with a raw payload of l bytes unless (20+l)/4 mod 256 / 16 is 0, 2, 4 or 6 (C44: panic). No other value or order of calls makes a build fail. Faults in later calls do not matter.", "quantifier": "all histories of Ethernet, IPv4, UDP, TCP and ICMP builder calls with all values, legal or not; payloads of any size up to a quarter of the address space; all build profiles", "why_tests_cant": "unboundedly many histories; the absence of further failures is a universal statement", "anchors": ["src/ether/builder.rs: build, payload, ip", "src/ip/v4/builder.rs: dscp, ecn, payload, udp, tcp, icmp, build", "src/udp/builder.rs: payload, build", "src/tcp/builder.rs: payload, flags, source, build", "src/tcp/mod.rs: checksum", "src/icmp/echo/builder.rs: payload, build", "src/icmp/timestamp/builder.rs: build", "src/icmp/information/builder.rs: build"]}
{"id": "C130", "title": "Address translators written with this crate", "statement": "A NAT that parses an IPv4 packet in place, sets its source or destination address (or both) through checked(), copies it, parses payload_mut() as UDP or TCP and sets the port or ports through checked(&copy) neither fails nor panics on a valid packet; behind any number of such translators, in any order, the packet is accepted and valid at both layers, has the addresses and ports set last, and differs in nothing but addresses, ports and the two checksums. What arrives depends on the final addresses and ports only, not on the way: two paths that end in the same ones give the same bytes; setting the original ones again gives the original packet back, byte for byte; and a packet translated to another source, answered in place and translated back is the direct answer. UDP and TCP packets built with this crate are such packets.", "quantifier": "all valid IPv4 packets with UDP or TCP inside (header lengths at least 20; TCP of odd length only where a failed read_exact leaves the cursor alone, C60), all lists of translations; all programs of C45 and C46", "why_tests_cant": "induction over the list of translators, all packets and all addresses and ports", "anchors": ["src/ip/v4/packet.rs: new, checked, set_source, set_destination, is_valid", "src/udp/packet.rs: checked, set_source, set_destination, is_valid", "src/tcp/packet.rs: checked, set_source, set_destination, is_valid", "src/packet.rs: payload_mut"]}
{"id": "C131", "title": "Exactly when a payload-free program fails on fixed storage, and with what", "statement": "Whether a program of builder calls without payloads on a buffer::Slice ends in a packet, an error or a panic, and which error, can be read off the calls and the size of the storage: the first call counts that either is faulty in the sense of C129 or begins a header that the storage cannot hold (SmallBuffer). Ethernet begins at byte 0 and needs 14 bytes, IPv4 20 more, then UDP 8, TCP 20, ICMP echo and information 8 and timestamp 20 more; icmp() itself needs none. What the storage held before does not matter, more storage never makes a program fail, and with 54 bytes it fails exactly as on a growable buffer.", "quantifier": "all payload-free histories of Ethernet, IPv4, UDP, TCP and ICMP builder calls with all values, legal or not; all sizes and contents of the storage; all build profiles", "why_tests_cant": "all lists of calls with all values and all storage sizes: the precedence of the errors must hold at every position", "anchors": ["src/buffer/slice.rs: next", "src/ether/builder.rs: with, ip", "src/ip/v4/builder.rs: with, udp, tcp, icmp, dscp, ecn", "src/udp/builder.rs: with", "src/tcp/builder.rs: with, flags", "src/icmp/builder.rs: echo, timestamp, information", "src/icmp/echo/builder.rs: build"]}
{"id": "C132", "title": "Networks of routers and address translators", "statement": "A valid UDP or TCP packet can be sent through routers (C128) and address translators (C130) written with this crate in any number and order without any of them failing or panicking. With fewer routers on the way than its time to live it arrives: accepted and valid at both layers, with the addresses and ports set last, the time to live counted down once per router, and nothing else changed but the two checksums; with as many routers or more it is dropped. What arrives depends only on the number of routers and the final addresses and ports, not on the order of the nodes: all routers may as well come first. A packet built with this crate arrives as, byte for byte, the packet the sender would have built with the final addresses and ports and the remaining time to live.", "quantifier": "all valid IPv4 packets with UDP or TCP inside (header lengths at least 20; TCP of odd length only where a failed read_exact leaves the cursor alone, C60), all lists of nodes; all programs of C45 and C46", "why_tests_cant": "induction over the list of nodes, all packets, all interleavings of routers and translators", "anchors": ["src/ip/v4/packet.rs: new, checked, is_valid, ttl, set_ttl, set_source, set_destination", "src/udp/packet.rs: checked, set_source, set_destination", "src/tcp/packet.rs: checked, set_source, set_destination", "src/ip/v4/builder.rs: build", "src/udp/builder.rs: build", "src/tcp/builder.rs: build"]}
{"id": "C133", "title": "Answering pings", "statement": "A host written with this crate can answer pings in place: for a packet accepted by ip::v4::Packet::new that is valid, carries ICMP for its own address, and inside of which icmp::echo::Packet::new accepts a valid request, it exchanges the addresses and sets the time to live through checked(), and turns the message into a reply through icmp::echo's checked().make_reply(). The answer is accepted and valid at both layers, is an echo reply from the host back to the sender with the same identifier, sequence number and data, and nothing changed but time to live, addresses, kind and the two checksums. Every other accepted packet is left unanswered, without failure or panic; a reply is never answered, so two hosts do not keep answering each other. Over a network of routers (C128) a request with enough time to live comes back as the reply. The answer to a request built with this crate is, byte for byte, the packet the host would have built itself for a reply with the same fields.", "quantifier": "all accepted IPv4 packets with a header length of at least 20, all host addresses and times to live, all numbers of routers both ways; all programs of C48 for echo messages up to 65535 bytes of total length", "why_tests_cant": "all packets and payload sizes, all interleavings of setter and checksum writes at two nested layers; equality of bytes with a second program", "anchors": ["src/ip/v4/packet.rs: new, checked, is_valid, protocol, payload, payload_mut, set_source, set_destination, set_ttl", "src/icmp/echo/packet.rs: new, is_request, checked, make_reply", "src/icmp/packet.rs: new, is_valid", "src/ip/v4/builder.rs: build", "src/icmp/echo/builder.rs: build"]}
{"id": "C134", "title": "IPv4 packets in a byte stream", "statement": "A receiver can take IPv4 packets out of a byte stream with this crate: it calls ip::v4::Packet::new on the bytes it has, waits for more on SmallBuffer, stops on any other error and on a total length below 20 or below the header length, and otherwise cuts off total length bytes. It never panics; it takes out exactly the whole packets (accepted, total length equal to size) at the beginning and keeps the rest exactly while the rest is incomplete, for every byte string. What it takes out does not depend on how the bytes are cut into chunks. Whole packets, in particular those built with this crate, sent one behind another arrive one by one as they were sent, and so no two lists of whole packets have the same bytes. A packet in the middle can be edited where it stands through a view of everything from it on: a checked() session does what it does on the packet alone and leaves the rest of the stream as it was.", "quantifier": "all byte strings and all ways to cut them into chunks; all lists of whole packets; all lists of programs of C43, C45, C46, C48; all sessions on a packet with a header length of at least 20", "why_tests_cant": "induction over the stream and over the chunks: unbounded streams, all chunkings, hostile bytes", "anchors": ["src/ip/v4/packet.rs: new, length, header, checked, set_*", "src/ip/v4/builder.rs: build"]}
{"id": "C135", "title": "Routers and hosts on Ethernets", "statement": "A station written with this crate takes an Ethernet frame, leaves it alone unless it is addressed to it and carries IPv4, works on the packet in place through payload_mut(), sets destination and source and sends it on. Frames for others or of other protocols never make it fail or panic. Along stations that send to each other in a row the frame is transparent: what arrives is exactly what the stations make of the packet alone, in a frame from the last station to the one behind it, and they drop, fail or panic exactly where they do so on the packet alone. In particular a ping (C133) over any number of routers (C128) on Ethernets comes back as the valid reply, padding of the frames included, and a frame built with this crate can be sent along any such way.", "quantifier": "all frames, all lists of linked stations and whatever they do to packets; all numbers of routers; all programs of C49 without a raw payload", "why_tests_cant": "induction over the stations; arbitrary packet handlers", "anchors": ["src/ether/packet.rs: new, destination, protocol, payload_mut, set_destination, set_source", "src/packet.rs: PacketMut::payload_mut", "src/ether/builder.rs: build"]}
{"id": "C136", "title": "A byte stream in TCP segments", "statement": "A receiver written with this crate that takes the data of every valid segment (is_valid() at both layers) into a buffer, at the distance of sequence() from the initial sequence number, ends up with every chunk that arrived in its place and every other byte of the buffer untouched, whatever the order and however often segments arrive, and whatever other bytes arrive that are refused or not valid; sequence numbers may wrap. When every chunk has arrived the buffer is the stream. The segments can be built with this crate (C46), pass any number of routers (C128), and a segment with one byte changed on the way, other than the header length of the IP packet, counts as junk: it is refused or not valid, and does no harm (C09).", "quantifier": "all streams below 2^32 bytes and all ways to cut them; all initial sequence numbers; all lists of arrivals; all legal calls of the builders with a chunk of at most 65495 bytes, of even length where a failed read_exact advances the cursor (C60); all bytes of a segment and all changes to them", "why_tests_cant": "induction over the arrivals; arbitrary cuts, orders and repetitions", "anchors": ["src/tcp/packet.rs: new, is_valid, sequence, payload", "src/ip/v4/packet.rs: new, is_valid, payload", "src/tcp/builder.rs: sequence, payload, build"]}
{"id": "C137", "title": "Dissecting whatever comes", "statement": "A dissector written with this crate - ether::Packet::new, then by protocol() ip::v4::Packet::new, udp/tcp/icmp::Packet::new and the typed ICMP views, with is_valid() at each layer and the packet quoted in an ICMP error - shows for every byte string exactly what is to be read in it at the bit positions of IEEE 802.3 and RFC 791, 768, 793 and 792: every field, every payload, every refusal with its error, and whether the checksums are right. It never fails, and it panics in one case only: verifying a TCP segment of odd length with a std that moves the cursor in a failed read_exact (C60). Three deviations of the checksums from the RFCs are part of the statement (C60, C65). A frame built with this crate around UDP, TCP, an ICMP echo or an ICMP timestamp is shown as it was asked for.", "quantifier": "all byte strings; all legal histories of builder calls (what dscp(), ecn(), flags() and offset() put on the wire is C98)", "why_tests_cant": "ranges over all byte strings at once; every layer is reached by some of them", "anchors": ["src/ether/packet.rs: new, destination, source, protocol, payload", "src/ip/v4/packet.rs: new, accessors, is_valid, payload", "src/udp/packet.rs: new, accessors, is_valid", "src/tcp/packet.rs: new, accessors, is_valid", "src/icmp/packet.rs: new, echo, timestamp, previous, redirect_message, parameter_problem, is_valid", "src/icmp/previous/packet.rs: packet"]}
{"id": "C138", "title": "A UDP service", "statement": "A server written with this crate, at a hardware address, an IPv4 address and a port, that opens a frame layer by layer, checks destination(), protocol() and is_valid(), and answers with a built reply, takes for a request exactly the frames in which a UDP datagram for it is to be read at the bit positions of IEEE 802.3 and RFC 791 and 768, with both checksums right: it answers those with the reply for the payload read, to the sender's hardware address, IPv4 address and port, and does nothing for any other byte string. It never fails or panics if its answers have at most 65507 bytes. The reply reads as asked for at every layer with right checksums, and a request built with this crate comes back answered.", "quantifier": "all byte strings; all services (addresses, port and answer function); all legal histories of the client's builder calls", "why_tests_cant": "ranges over all byte strings and all answer functions at once", "anchors": ["src/ether/packet.rs: new, destination, source, protocol, payload", "src/ip/v4/packet.rs: new, destination, source, protocol, is_valid, payload", "src/udp/packet.rs: new, source, destination, is_valid, payload", "src/ether/builder.rs: ip", "src/ip/v4/builder.rs: udp", "src/udp/builder.rs: source, destination, payload, build"]}
{"id": "C139", "title": "Refusing TCP connections", "statement": "A host without listening sockets, written with this crate - open the frame layer by layer, check destination(), protocol() and is_valid(), read sequence(), acknowledgment(), flags() and payload(), build a reset - answers exactly the frames in which a TCP segment for it is to be read at the bit positions of IEEE 802.3 and RFC 791 and 793 with both checksums right, and with exactly the reset of RFC 793 (page 36): none for a reset; the acknowledged number and RST for a segment with ACK; zero, RST and ACK, and the number after the segment's last octet (SYN and FIN count, modulo 2^32) otherwise. The reset goes back to the sender's hardware address, IPv4 address and port and reads as asked for at every layer. Whatever else arrives is not answered, and nothing makes the host fail; it panics only where verifying a segment of odd length does (C60). No such host answers a reset another one sent, so two of them never talk in circles. A connection attempt built with this crate is refused in this way.", "quantifier": "all byte strings; all hosts; all legal histories of the builder calls of the client", "why_tests_cant": "ranges over all byte strings, sequence numbers and control bits at once; the loop takes two hosts", "anchors": ["src/ether/packet.rs: new, destination, source, protocol, payload", "src/ip/v4/packet.rs: new, destination, source, protocol, is_valid, payload", "src/tcp/packet.rs: new, source, destination, sequence, acknowledgment, flags, is_valid, payload", "src/tcp/flag.rs: Flags", "src/ip/v4/builder.rs: tcp", "src/tcp/builder.rs: source, destination, sequence, acknowledgment, flags, build"]}
{"id": "C140", "title": "A UDP exchange across networks", "statement": "A frame around UDP built with this crate that is sent through Ethernets over any number of routers (C128) and address translators (C130) in any order, fewer routers than its time to live, arrives as, byte for byte, the frame that this crate builds with the hardware addresses of the last hop, the time to live left and the addresses and ports set last. If it arrives at the service of C138, the service answers, and what it answers, sent back over any other nodes in the same way, arrives as a frame in which the dissector of C137 shows the answer: from the last hop, with the addresses and ports the nodes on the way back set last, and right checksums at both layers.", "quantifier": "all legal histories of the client's builder calls; all services; all lists of routers and translators there and back, linked by hardware addresses; answers up to 65507 bytes", "why_tests_cant": "ranges over all networks, payloads and services at once", "anchors": ["src/ether/packet.rs: set_destination, set_source, payload_mut", "src/ip/v4/packet.rs: set_ttl, set_source, set_destination, checked", "src/udp/packet.rs: set_source, set_destination, checked, is_valid", "src/ether/builder.rs: ip", "src/ip/v4/builder.rs: udp", "src/udp/builder.rs: build"]}
{"id": "C141", "title": "A masquerading gateway", "statement": "A gateway that hides UDP endpoints behind one address, written with this crate's setters in place of any of its own arithmetic, works: it never fails or panics, whatever bytes come from either side. A sound datagram from the inside goes out from the gateway's address and from the port of its endpoint, with nothing but endpoints and checksums changed and both checksums right, and is dropped only if its endpoint has no port and all are given out. Whatever happens in between, two datagrams go out from the same port exactly if they are from the same inside endpoint, and what comes for that port later, from anyone, goes to that endpoint. Nothing else comes in: only datagrams to an endpoint that has sent one before. What is not a sound UDP datagram leaves no trace.", "quantifier": "all gateways; all histories of byte strings from both sides; all datagrams", "why_tests_cant": "ranges over all histories of a translator, with arbitrary traffic in between", "anchors": ["src/ip/v4/packet.rs: new, is_valid, ihl, protocol, source, destination, set_source, set_destination, checked", "src/udp/packet.rs: new, is_valid, source, destination, set_source, set_destination, checked"]}
{"id": "C142", "title": "Conversations through masquerading gateways", "statement": "A UDP datagram that a masquerading gateway (C141) sends on travels through any network of routers and address translators (C132) with fewer routers than its time to live, and arrives sound, from the gateway's address and port as the network shows them, carrying the bytes it was sent with. Whatever is sent to that port of the gateway, through any network that leads there, arrives at the inside endpoint carrying the bytes it was sent with, whatever came to the gateway before and in between. Behind routers alone the far end sees the gateway, and its answer comes back to the endpoint from the very address and port that the endpoint sent to. The same holds for one gateway behind another. What is built with this crate's builders can be sent so, and what leaves the gateway is, byte for byte, the packet that the builders make of the same calls followed by setting the source address and port to the gateway's.", "quantifier": "all gateways; all histories of byte strings to them before and in between; all lists of routers and translators there and back; all datagrams and answers; all legal histories of builder calls", "why_tests_cant": "ranges over all histories and networks at once", "anchors": ["src/ip/v4/packet.rs: new, is_valid, payload, ttl, set_ttl, set_source, set_destination, checked", "src/udp/packet.rs: new, is_valid, payload, set_source, set_destination, checked", "src/ip/v4/builder.rs: udp, source", "src/udp/builder.rs: source, build"]}

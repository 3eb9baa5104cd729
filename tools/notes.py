also = {
"C27": [], 
"C31": ["C73_options_terminate", "C73_error_forever"],
"C32": ["C73_next_panics_iff", "C73_accessors_panic_iff", "C73_no_panic_step"],
"C17": ["C77_v4_set_ecn_exact", "C77_v4_set_flags_exact", "C77_v4_set_offset_exact"],
"C47": ["C81_tcp_order_exact"],
"C52": ["C76_ipv4_no_panic", "C76_ether_no_panic", "C76_icmp_no_panic", "C76_ethernet_no_panic"],
"C53": ["C74_length_field"],
"C54": ["C75_ipv4", "C75_ethernet", "C75_icmp", "C75_ether"],
"C56": ["C79_header_bounds_iff", "C79_payload_bounds_iff"],
"C57": ["C78_sizes_agree", "C78_sizes_agree_iff"],
"C61": ["C80_tcp_debug", "C80_v4_debug", "C80_icmp_debug", "C80_echo_information_debug"],
"C65": ["C05_icmp_checksum_rfc", "C05_icmp_checksum_odd"],
"C67": ["C14_v4_flags_exact"],
"C69": ["C20_ip_dispatch"],
"C70": ["C29_tcp_options", "C30_v4_options"],
"C71": ["C37_timestamp", "C37_information"],
"C72": ["C39_quoted"],
"C82": ["C58_v4_view", "C58_udp_view", "C58_tcp_view"],
"C97": ["C98_builder_words"],
"C83": ["C59_udp_is_valid_total", "C59_tcp_is_valid_total"],
}
also = {k: ["Verif.Props." + t for t in v] for k, v in also.items()}
notes = {
"C01": "C01_wraparound records the one exception named in the statement.",
"C17": "False of the code (three _refuted theorems). What the setters do exactly, and under exactly which conditions they are right, is C77.",
"C27": "False of the code: set_flags zeroes the data offset and the reserved bits of every segment (C27_tcp_set_flags_refuted), so every checked() session with a set_flags anywhere in it panics. Proved: the flag bits are stored and read back and nothing outside that word changes.",
"C31": "False of the code: a truncated option is reported forever; without overflow checks an option of length 0 is yielded forever. Proved part: C73.",
"C32": "False of the code: a lone last byte or a zero length byte panics. Exactly when: C73.",
"C44": "False of the code: prepare() counts a raw payload as header words and its words in the checksum. Proved exactly for every length (C44_v4_payload_exact_partial): the packet is the one asked for iff the payload has 0 or 64 whole words modulo 256 (0..3, 256..259, 1024..1027, ... bytes) and their one's complement sum is zero; for 4..43 bytes the payload comes out as options, for 44..235 the packet is rejected; inside Ethernet (C44_in_ethernet_exact_partial) the frame is labelled IPv4 or IPv6 or the build panics, by bits 4..7 of the word count.",
"C47": "False of the code for setters after flags(); C81 proves the exact condition.",
"C52": "False of the code: standalone UDP and TCP builders panic. C76 proves when build() does not panic.",
"C53": "False of the code for UDP, TCP, ICMP and raw payloads: the packet is built with truncated length fields. C74 proves what the length field is.",
"C54": "False of the code with a payload, because buffer::Slice::more moves the layer (C64). C75 proves it without payload calls; C104 proves for every capacity and contents what a build with a payload gives on a static buffer.",
"C56": "False of the code; C79 proves for every packet type exactly when the bounds hold.",
"C57": "False of the code for timestamp, information, previous, redirect and parameter-problem; C78 proves exactly when it holds.",
"C60": "False of the code on a std whose failed read_exact moves the cursor: UDP ignores the last byte (C60_udp_odd_exact), TCP panics. Proved for even lengths; for odd ones the UDP checksum is independent of std exactly if the last byte is zero (C60_udp_odd_iff_partial).",
"C61": "False of the code (swapped and wrong labels, panic on MF). C80 proves what is shown for every packet type.",
"C64": "False of the code in every reachable state with a non-empty layer.",
"C65": "False of the code. What is computed: C05; exactly which messages are right: C65_icmp_checksum_iff_partial; no last byte of an odd message is ever checked: C65_icmp_odd_ignored_refuted.",
"C66": "False of the code; right exactly for datagrams whose computed checksum is not zero (C66_udp_checksum_iff_partial); 0xffff is never accepted, 0 only by coincidence (C66_udp_is_valid_special_refuted).",
"C67": "False of the code. What flags() does exactly: C14_v4_flags_exact.",
"C68": "False of the code: such packets are accepted and options() panics on all of them.",
"C69": "False of the code. On all other buffers: C20.",
"C70": "False of the code: the payload is the whole rest of the option area.",
"C71": "False of the code for every accepted message: the kind becomes that of an echo message.",
"C72": "False of the code: SmallBuffer. Proved (C39): packet() for quotes that are there entirely.",
"C82": "False of the code: the length fields are written by build(); after flags() the TCP data offset is zero.",
"C83": "False of the code: unimplemented!() panics.",
"C87": "False of the code: the edit does not set the builder's kind flag; build() fails with InvalidPacket unless request() or reply() was called.",
"C89": "False of the code: the checksum runs over the whole buffer with the buffer's length in the pseudo header. Proved where the buffer ends with the datagram.",
"C91": "False of the code once the 16-bit words sum to 2^32 (segments above about 128 KiB): panic with overflow checks, a wrong value without. Proved below.",
"C95": "Proved for Ethernet frames and for plain IPv4 packets (no options, no flags) with the five inner protocols; false of the code for packets with DF set, because flags() sets no flag bit (only offset() with a word above 13 bits reaches them, see C112).",
"C97": "False of the code for ecn() and flags(); offset() and dscp() are right when they come last. What happens exactly: C98.",
"C108": "Proved: exact acceptance for every buffer but one lone byte that asks for a length (which panics), the writable regions, and exactly when payload_mut() lies inside the option. False of the code for that lone byte and for one-byte options, whose payload_mut() is everything behind them.",
"C118": "Proved for every program without a payload. False of the code with one (Slice::more moves the layer): exactly which bytes behind the packet are overwritten is C118_*_payload.",
"C119": "False of the code (Slice::more moves the layer). Proved: what a program with later calls builds exactly, its last byte excepted, and that raw IPv4 and echo payloads never build.",
"C99": "Proved: header sizes, the exact condition for the payload bound (length() at most 34), slices of complete options. False of the code for options of 35 to 40 bytes and for length 0. Options of length 1 are C70.",
}

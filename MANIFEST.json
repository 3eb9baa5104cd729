{
 "claims": [
  {
   "property": "C01",
   "status": "proved",
   "theorems": [
    "Verif.Props.C01_dynamic_layers",
    "Verif.Props.C01_unallocatable",
    "Verif.Props.C01_wraparound"
   ],
   "note": "C01_wraparound records the one exception named in the statement."
  },
  {
   "property": "C02",
   "status": "proved",
   "theorems": [
    "Verif.Props.C02_slice_layers"
   ],
   "note": ""
  },
  {
   "property": "C03",
   "status": "proved",
   "theorems": [
    "Verif.Props.C03_slice_refuses",
    "Verif.Props.C03_states",
    "Verif.Props.C03_wraparound",
    "Verif.Props.C03_more_wraparound"
   ],
   "note": ""
  },
  {
   "property": "C04",
   "status": "proved",
   "theorems": [
    "Verif.Props.C04_v4_checksum_total",
    "Verif.Props.C04_v4_checksum_rfc",
    "Verif.Props.C04_v4_header_checksum_rfc"
   ],
   "note": ""
  },
  {
   "property": "C05",
   "status": "proved",
   "theorems": [
    "Verif.Props.C05_icmp_checksum_total",
    "Verif.Props.C05_icmp_checksum_rfc",
    "Verif.Props.C05_icmp_checksum_odd"
   ],
   "note": ""
  },
  {
   "property": "C06",
   "status": "proved",
   "theorems": [
    "Verif.Props.C06_udp_checksum_rfc"
   ],
   "note": ""
  },
  {
   "property": "C07",
   "status": "proved",
   "theorems": [
    "Verif.Props.C07_tcp_checksum_rfc"
   ],
   "note": ""
  },
  {
   "property": "C08",
   "status": "proved",
   "theorems": [
    "Verif.Props.C08_v4_update_checksum",
    "Verif.Props.C08_udp_update_checksum",
    "Verif.Props.C08_tcp_update_checksum"
   ],
   "note": ""
  },
  {
   "property": "C09",
   "status": "proved",
   "theorems": [
    "Verif.Props.C09_v4_corruption_detected",
    "Verif.Props.C09_v4_ihl_undetected",
    "Verif.Props.C09_icmp_corruption_detected",
    "Verif.Props.C09_udp_corruption_detected",
    "Verif.Props.C09_tcp_corruption_detected"
   ],
   "note": ""
  },
  {
   "property": "C10",
   "status": "proved",
   "theorems": [
    "Verif.Props.C10_ether_accept",
    "Verif.Props.C10_ether_views"
   ],
   "note": ""
  },
  {
   "property": "C11",
   "status": "proved",
   "theorems": [
    "Verif.Props.C11_ether_setters"
   ],
   "note": ""
  },
  {
   "property": "C12",
   "status": "proved",
   "theorems": [
    "Verif.Props.C12_v4_no_payload_accept",
    "Verif.Props.C12_v4_new_accept"
   ],
   "note": ""
  },
  {
   "property": "C13",
   "status": "proved",
   "theorems": [
    "Verif.Props.C13_v4_accessors_total"
   ],
   "note": ""
  },
  {
   "property": "C14",
   "status": "proved",
   "theorems": [
    "Verif.Props.C14_v4_fields",
    "Verif.Props.C14_v4_flags_exact",
    "Verif.Props.C14_v4_dont_fragment"
   ],
   "note": ""
  },
  {
   "property": "C15",
   "status": "proved",
   "theorems": [
    "Verif.Props.C15_v4_split"
   ],
   "note": ""
  },
  {
   "property": "C16",
   "status": "proved",
   "theorems": [
    "Verif.Props.C16_v4_setters"
   ],
   "note": ""
  },
  {
   "property": "C17",
   "status": "partial",
   "theorems": [
    "Verif.Props.C17_v4_set_ecn_refuted",
    "Verif.Props.C17_v4_set_flags_refuted",
    "Verif.Props.C17_v4_set_offset_refuted",
    "Verif.Props.C17_v4_set_offset_range_refuted",
    "Verif.Props.C77_v4_set_ecn_exact",
    "Verif.Props.C77_v4_set_flags_exact",
    "Verif.Props.C77_v4_set_offset_exact"
   ],
   "note": "False of the code (three _refuted theorems). What the setters do exactly, and under exactly which conditions they are right, is C77."
  },
  {
   "property": "C18",
   "status": "proved",
   "theorems": [
    "Verif.Props.C18_v4_range_checks"
   ],
   "note": ""
  },
  {
   "property": "C19",
   "status": "proved",
   "theorems": [
    "Verif.Props.C19_v4_checked",
    "Verif.Props.C19_v4_checked_fields"
   ],
   "note": ""
  },
  {
   "property": "C20",
   "status": "proved",
   "theorems": [
    "Verif.Props.C20_from",
    "Verif.Props.C20_ip_dispatch",
    "Verif.Props.C20_ip_views",
    "Verif.Props.C20_v6_accept"
   ],
   "note": ""
  },
  {
   "property": "C21",
   "status": "proved",
   "theorems": [
    "Verif.Props.C21_udp_accept",
    "Verif.Props.C21_udp_fields",
    "Verif.Props.C21_udp_views",
    "Verif.Props.C21_udp_views_no_payload"
   ],
   "note": ""
  },
  {
   "property": "C22",
   "status": "proved",
   "theorems": [
    "Verif.Props.C22_udp_setters"
   ],
   "note": ""
  },
  {
   "property": "C23",
   "status": "proved",
   "theorems": [
    "Verif.Props.C23_udp_checked"
   ],
   "note": ""
  },
  {
   "property": "C24",
   "status": "proved",
   "theorems": [
    "Verif.Props.C24_tcp_accept",
    "Verif.Props.C24_tcp_fields",
    "Verif.Props.C24_tcp_views"
   ],
   "note": ""
  },
  {
   "property": "C25",
   "status": "proved",
   "theorems": [
    "Verif.Props.C25_tcp_options"
   ],
   "note": ""
  },
  {
   "property": "C26",
   "status": "proved",
   "theorems": [
    "Verif.Props.C26_tcp_setters"
   ],
   "note": ""
  },
  {
   "property": "C27",
   "status": "partial",
   "theorems": [
    "Verif.Props.C27_tcp_set_flags_partial",
    "Verif.Props.C27_tcp_set_flags_refuted",
    "Verif.Props.C27_tcp_checked_flags_refuted"
   ],
   "note": "False of the code: set_flags zeroes the data offset and the reserved bits of every segment (C27_tcp_set_flags_refuted), so every checked() session with a set_flags anywhere in it panics. Proved: the flag bits are stored and read back and nothing outside that word changes."
  },
  {
   "property": "C28",
   "status": "proved",
   "theorems": [
    "Verif.Props.C28_tcp_checked"
   ],
   "note": ""
  },
  {
   "property": "C29",
   "status": "proved",
   "theorems": [
    "Verif.Props.C29_tcp_options",
    "Verif.Props.C29_tcp_segment_options"
   ],
   "note": ""
  },
  {
   "property": "C30",
   "status": "proved",
   "theorems": [
    "Verif.Props.C30_v4_options",
    "Verif.Props.C30_v4_packet_options"
   ],
   "note": ""
  },
  {
   "property": "C31",
   "status": "partial",
   "theorems": [
    "Verif.Props.C31_error_stream_refuted",
    "Verif.Props.C31_zero_length_refuted",
    "Verif.Props.C73_options_terminate",
    "Verif.Props.C73_error_forever"
   ],
   "note": "False of the code: a truncated option is reported forever; without overflow checks an option of length 0 is yielded forever. Proved part: C73."
  },
  {
   "property": "C32",
   "status": "partial",
   "theorems": [
    "Verif.Props.C32_options_refuted",
    "Verif.Props.C32_tcp_options_refuted",
    "Verif.Props.C73_next_panics_iff",
    "Verif.Props.C73_accessors_panic_iff",
    "Verif.Props.C73_no_panic_step"
   ],
   "note": "False of the code: a lone last byte or a zero length byte panics. Exactly when: C73."
  },
  {
   "property": "C33",
   "status": "proved",
   "theorems": [
    "Verif.Props.C33_options_tile"
   ],
   "note": ""
  },
  {
   "property": "C34",
   "status": "proved",
   "theorems": [
    "Verif.Props.C34_icmp_accept",
    "Verif.Props.C34_icmp_views"
   ],
   "note": ""
  },
  {
   "property": "C35",
   "status": "proved",
   "theorems": [
    "Verif.Props.C35_icmp_typed_accept",
    "Verif.Props.C35_icmp_typed_disjoint"
   ],
   "note": ""
  },
  {
   "property": "C36",
   "status": "proved",
   "theorems": [
    "Verif.Props.C36_echo_fields",
    "Verif.Props.C36_echo_setters"
   ],
   "note": ""
  },
  {
   "property": "C37",
   "status": "proved",
   "theorems": [
    "Verif.Props.C37_timestamp",
    "Verif.Props.C37_information",
    "Verif.Props.C37_views"
   ],
   "note": ""
  },
  {
   "property": "C38",
   "status": "proved",
   "theorems": [
    "Verif.Props.C38_echo_checked",
    "Verif.Props.C38_timestamp_checked",
    "Verif.Props.C38_information_checked",
    "Verif.Props.C38_echo_checked_fields",
    "Verif.Props.C38_timestamp_checked_fields",
    "Verif.Props.C38_information_checked_fields"
   ],
   "note": ""
  },
  {
   "property": "C39",
   "status": "proved",
   "theorems": [
    "Verif.Props.C39_quoted"
   ],
   "note": ""
  },
  {
   "property": "C40",
   "status": "proved",
   "theorems": [
    "Verif.Props.C40_ether_protocol",
    "Verif.Props.C40_ip_protocol",
    "Verif.Props.C40_icmp_kind",
    "Verif.Props.C40_icmp_codes",
    "Verif.Props.C40_option_numbers",
    "Verif.Props.C40_v4_option_class",
    "Verif.Props.C40_v4_option_class_panics",
    "Verif.Props.C40_assigned_numbers",
    "Verif.Props.C40_no_collapse"
   ],
   "note": ""
  },
  {
   "property": "C41",
   "status": "proved",
   "theorems": [
    "Verif.Props.C41_moved",
    "Verif.Props.C41_finalize_executes",
    "Verif.Props.C41_each_once_in_reverse",
    "Verif.Props.C41_first_error_stops",
    "Verif.Props.C41_extend"
   ],
   "note": ""
  },
  {
   "property": "C42",
   "status": "proved",
   "theorems": [
    "Verif.Props.C42_ether_build"
   ],
   "note": ""
  },
  {
   "property": "C43",
   "status": "proved",
   "theorems": [
    "Verif.Props.C43_v4_build",
    "Verif.Props.C43_v4_range"
   ],
   "note": ""
  },
  {
   "property": "C44",
   "status": "partial",
   "theorems": [
    "Verif.Props.C44_v4_payload_partial",
    "Verif.Props.C44_v4_payload_refuted",
    "Verif.Props.C44_v4_payload_rejected_refuted",
    "Verif.Props.C44_in_ethernet_panic_refuted",
    "Verif.Props.C44_in_ethernet_v6_refuted",
    "Verif.Props.C44_v4_payload_exact_partial",
    "Verif.Props.C44_v4_payload_length_refuted",
    "Verif.Props.C44_in_ethernet_exact_partial"
   ],
   "note": "False of the code: prepare() counts a raw payload as header words and its words in the checksum. Proved exactly for every length (C44_v4_payload_exact_partial): the packet is the one asked for iff the payload has 0 or 64 whole words modulo 256 (0..3, 256..259, 1024..1027, ... bytes) and their one's complement sum is zero; for 4..43 bytes the payload comes out as options, for 44..235 the packet is rejected; inside Ethernet (C44_in_ethernet_exact_partial) the frame is labelled IPv4 or IPv6 or the build panics, by bits 4..7 of the word count."
  },
  {
   "property": "C45",
   "status": "proved",
   "theorems": [
    "Verif.Props.C45_udp_build"
   ],
   "note": ""
  },
  {
   "property": "C46",
   "status": "proved",
   "theorems": [
    "Verif.Props.C46_tcp_build"
   ],
   "note": ""
  },
  {
   "property": "C47",
   "status": "partial",
   "theorems": [
    "Verif.Props.C47_tcp_order_refuted",
    "Verif.Props.C81_tcp_order_exact"
   ],
   "note": "False of the code for setters after flags(); C81 proves the exact condition."
  },
  {
   "property": "C48",
   "status": "proved",
   "theorems": [
    "Verif.Props.C48_echo_build",
    "Verif.Props.C48_timestamp_build",
    "Verif.Props.C48_information_build",
    "Verif.Props.C48_icmp_in_ipv4",
    "Verif.Props.C48_echo_in_ipv4"
   ],
   "note": ""
  },
  {
   "property": "C49",
   "status": "proved",
   "theorems": [
    "Verif.Props.C49_stack_compose"
   ],
   "note": ""
  },
  {
   "property": "C50",
   "status": "proved",
   "theorems": [
    "Verif.Props.C50_ether_payload_once",
    "Verif.Props.C50_v4_payload_once",
    "Verif.Props.C50_udp_payload_once",
    "Verif.Props.C50_tcp_payload_once",
    "Verif.Props.C50_echo_payload_once",
    "Verif.Props.C50_never_a_packet"
   ],
   "note": ""
  },
  {
   "property": "C51",
   "status": "proved",
   "theorems": [
    "Verif.Props.C51_no_protocol",
    "Verif.Props.C51_v6_program",
    "Verif.Props.C51_echo_needs_kind",
    "Verif.Props.C51_timestamp_needs_kind",
    "Verif.Props.C51_information_needs_kind",
    "Verif.Props.C51_icmp_program"
   ],
   "note": ""
  },
  {
   "property": "C52",
   "status": "partial",
   "theorems": [
    "Verif.Props.C52_udp_alone_refuted",
    "Verif.Props.C52_tcp_alone_refuted",
    "Verif.Props.C76_ipv4_no_panic",
    "Verif.Props.C76_ether_no_panic",
    "Verif.Props.C76_icmp_no_panic",
    "Verif.Props.C76_ethernet_no_panic"
   ],
   "note": "False of the code: standalone UDP and TCP builders panic. C76 proves when build() does not panic."
  },
  {
   "property": "C53",
   "status": "partial",
   "theorems": [
    "Verif.Props.C53_udp_too_large_refuted",
    "Verif.Props.C53_tcp_too_large_refuted",
    "Verif.Props.C53_icmp_too_large_refuted",
    "Verif.Props.C53_raw_too_large_refuted",
    "Verif.Props.C74_length_field"
   ],
   "note": "False of the code for UDP, TCP, ICMP and raw payloads: the packet is built with truncated length fields. C74 proves what the length field is."
  },
  {
   "property": "C54",
   "status": "partial",
   "theorems": [
    "Verif.Props.C54_ether_payload_panics_refuted",
    "Verif.Props.C54_ether_payload_lost_refuted",
    "Verif.Props.C54_ipv4_payload_panics_refuted",
    "Verif.Props.C75_ipv4",
    "Verif.Props.C75_ethernet",
    "Verif.Props.C75_icmp",
    "Verif.Props.C75_ether"
   ],
   "note": "False of the code with a payload, because buffer::Slice::more moves the layer (C64). C75 proves it without payload calls; C104 proves for every capacity and contents what a build with a payload gives on a static buffer."
  },
  {
   "property": "C55",
   "status": "proved",
   "theorems": [
    "Verif.Props.C55_stack_parse"
   ],
   "note": ""
  },
  {
   "property": "C56",
   "status": "partial",
   "theorems": [
    "Verif.Props.C56_refuted",
    "Verif.Props.C79_header_bounds_iff",
    "Verif.Props.C79_payload_bounds_iff"
   ],
   "note": "False of the code; C79 proves for every packet type exactly when the bounds hold."
  },
  {
   "property": "C57",
   "status": "partial",
   "theorems": [
    "Verif.Props.C57_refuted",
    "Verif.Props.C78_sizes_agree",
    "Verif.Props.C78_sizes_agree_iff"
   ],
   "note": "False of the code for timestamp, information, previous, redirect and parameter-problem; C78 proves exactly when it holds."
  },
  {
   "property": "C58",
   "status": "proved",
   "theorems": [
    "Verif.Props.C58_ether_view",
    "Verif.Props.C58_v4_view",
    "Verif.Props.C58_udp_view",
    "Verif.Props.C58_tcp_view",
    "Verif.Props.C58_echo_view",
    "Verif.Props.C58_timestamp_view",
    "Verif.Props.C58_information_view"
   ],
   "note": ""
  },
  {
   "property": "C59",
   "status": "proved",
   "theorems": [
    "Verif.Props.C59_udp_is_valid_total",
    "Verif.Props.C59_tcp_is_valid_total"
   ],
   "note": ""
  },
  {
   "property": "C60",
   "status": "partial",
   "theorems": [
    "Verif.Props.C60_tcp_build_odd_refuted",
    "Verif.Props.C60_udp_odd_exact",
    "Verif.Props.C60_udp_odd_refuted",
    "Verif.Props.C60_tcp_odd_panics",
    "Verif.Props.C60_tcp_odd_refuted",
    "Verif.Props.C60_udp_odd_partial",
    "Verif.Props.C60_tcp_odd_partial",
    "Verif.Props.C60_refuted",
    "Verif.Props.C60_udp_odd_iff_partial"
   ],
   "note": "False of the code on a std whose failed read_exact moves the cursor: UDP ignores the last byte (C60_udp_odd_exact), TCP panics. Proved for even lengths; for odd ones the UDP checksum is independent of std exactly if the last byte is zero (C60_udp_odd_iff_partial)."
  },
  {
   "property": "C61",
   "status": "partial",
   "theorems": [
    "Verif.Props.C61_refuted",
    "Verif.Props.C80_tcp_debug",
    "Verif.Props.C80_v4_debug",
    "Verif.Props.C80_icmp_debug",
    "Verif.Props.C80_echo_information_debug"
   ],
   "note": "False of the code (swapped and wrong labels, panic on MF). C80 proves what is shown for every packet type."
  },
  {
   "property": "C62",
   "status": "proved",
   "theorems": [
    "Verif.Props.C62_v4_is_valid_iff_verifies",
    "Verif.Props.C62_udp_is_valid_iff_verifies",
    "Verif.Props.C62_tcp_is_valid_iff_verifies",
    "Verif.Props.C62_icmp_is_valid_iff_verifies"
   ],
   "note": ""
  },
  {
   "property": "C63",
   "status": "proved",
   "theorems": [
    "Verif.Props.C63_payload_mut",
    "Verif.Props.C63_short_header_needed"
   ],
   "note": ""
  },
  {
   "property": "C64",
   "status": "partial",
   "theorems": [
    "Verif.Props.C64_slice_more_refuted",
    "Verif.Props.C64_slice_more_example"
   ],
   "note": "False of the code in every reachable state with a non-empty layer."
  },
  {
   "property": "C65",
   "status": "partial",
   "theorems": [
    "Verif.Props.C65_icmp_odd_refuted",
    "Verif.Props.C65_icmp_zero_refuted",
    "Verif.Props.C65_icmp_odd_corruption_refuted",
    "Verif.Props.C65_icmp_checksum_iff_partial",
    "Verif.Props.C65_icmp_odd_ignored_refuted",
    "Verif.Props.C65_icmp_zero_valid_iff_refuted",
    "Verif.Props.C65_icmp_zero_valid_refuted",
    "Verif.Props.C05_icmp_checksum_rfc",
    "Verif.Props.C05_icmp_checksum_odd"
   ],
   "note": "False of the code. What is computed: C05; exactly which messages are right: C65_icmp_checksum_iff_partial; no last byte of an odd message is ever checked: C65_icmp_odd_ignored_refuted."
  },
  {
   "property": "C66",
   "status": "partial",
   "theorems": [
    "Verif.Props.C66_udp_checksum_nonzero_partial",
    "Verif.Props.C66_udp_zero_rule_refuted",
    "Verif.Props.C66_udp_checksum_iff_partial",
    "Verif.Props.C66_udp_is_valid_special_refuted",
    "Verif.Props.C66_udp_all_ones_refuted",
    "Verif.Props.C66_udp_no_checksum_refuted"
   ],
   "note": "False of the code; right exactly for datagrams whose computed checksum is not zero (C66_udp_checksum_iff_partial); 0xffff is never accepted, 0 only by coincidence (C66_udp_is_valid_special_refuted)."
  },
  {
   "property": "C67",
   "status": "partial",
   "theorems": [
    "Verif.Props.C67_v4_more_fragments_refuted",
    "Verif.Props.C67_v4_flags_panic_refuted",
    "Verif.Props.C14_v4_flags_exact"
   ],
   "note": "False of the code. What flags() does exactly: C14_v4_flags_exact."
  },
  {
   "property": "C68",
   "status": "partial",
   "theorems": [
    "Verif.Props.C68_tcp_options_panic",
    "Verif.Props.C68_tcp_options_refuted",
    "Verif.Props.C68_v4_options_panic",
    "Verif.Props.C68_v4_options_refuted"
   ],
   "note": "False of the code: such packets are accepted and options() panics on all of them."
  },
  {
   "property": "C69",
   "status": "partial",
   "theorems": [
    "Verif.Props.C69_ip_empty_refuted",
    "Verif.Props.C20_ip_dispatch"
   ],
   "note": "False of the code. On all other buffers: C20."
  },
  {
   "property": "C70",
   "status": "partial",
   "theorems": [
    "Verif.Props.C70_nop_payload_refuted",
    "Verif.Props.C29_tcp_options",
    "Verif.Props.C30_v4_options"
   ],
   "note": "False of the code: the payload is the whole rest of the option area."
  },
  {
   "property": "C71",
   "status": "partial",
   "theorems": [
    "Verif.Props.C71_timestamp_make_refuted",
    "Verif.Props.C71_information_make_refuted",
    "Verif.Props.C37_timestamp",
    "Verif.Props.C37_information"
   ],
   "note": "False of the code for every accepted message: the kind becomes that of an echo message."
  },
  {
   "property": "C72",
   "status": "partial",
   "theorems": [
    "Verif.Props.C72_truncated_quote_refuted",
    "Verif.Props.C72_every_truncated_quote_refuted",
    "Verif.Props.C39_quoted"
   ],
   "note": "False of the code: SmallBuffer. Proved (C39): packet() for quotes that are there entirely."
  },
  {
   "property": "C73",
   "status": "proved",
   "theorems": [
    "Verif.Props.C73_options_terminate",
    "Verif.Props.C73_error_forever",
    "Verif.Props.C73_next_panics_iff",
    "Verif.Props.C73_accessors_panic_iff",
    "Verif.Props.C73_no_panic_step"
   ],
   "note": ""
  },
  {
   "property": "C74",
   "status": "proved",
   "theorems": [
    "Verif.Props.C74_length_field"
   ],
   "note": ""
  },
  {
   "property": "C75",
   "status": "proved",
   "theorems": [
    "Verif.Props.C75_ipv4",
    "Verif.Props.C75_ethernet",
    "Verif.Props.C75_icmp",
    "Verif.Props.C75_ether"
   ],
   "note": ""
  },
  {
   "property": "C76",
   "status": "proved",
   "theorems": [
    "Verif.Props.C76_ipv4_no_panic",
    "Verif.Props.C76_ether_no_panic",
    "Verif.Props.C76_icmp_no_panic",
    "Verif.Props.C76_ethernet_no_panic"
   ],
   "note": ""
  },
  {
   "property": "C77",
   "status": "proved",
   "theorems": [
    "Verif.Props.C77_v4_set_ecn_exact",
    "Verif.Props.C77_v4_set_flags_offset_exact",
    "Verif.Props.C77_v4_set_offset_exact",
    "Verif.Props.C77_v4_set_flags_exact"
   ],
   "note": ""
  },
  {
   "property": "C78",
   "status": "proved",
   "theorems": [
    "Verif.Props.C78_sizes_agree",
    "Verif.Props.C78_sizes_agree_iff"
   ],
   "note": ""
  },
  {
   "property": "C79",
   "status": "proved",
   "theorems": [
    "Verif.Props.C79_header_bounds_iff",
    "Verif.Props.C79_payload_bounds_iff"
   ],
   "note": ""
  },
  {
   "property": "C80",
   "status": "proved",
   "theorems": [
    "Verif.Props.C80_tcp_debug",
    "Verif.Props.C80_v4_debug",
    "Verif.Props.C80_icmp_debug",
    "Verif.Props.C80_echo_information_debug",
    "Verif.Props.C80_ether_debug",
    "Verif.Props.C80_udp_debug",
    "Verif.Props.C80_timestamp_debug",
    "Verif.Props.C80_quoted_debug",
    "Verif.Props.C80_option_debug"
   ],
   "note": ""
  },
  {
   "property": "C81",
   "status": "proved",
   "theorems": [
    "Verif.Props.C81_tcp_order_exact"
   ],
   "note": ""
  },
  {
   "property": "C82",
   "status": "partial",
   "theorems": [
    "Verif.Props.C82_v4_udp_view_refuted",
    "Verif.Props.C82_tcp_view_after_flags_refuted",
    "Verif.Props.C58_v4_view",
    "Verif.Props.C58_udp_view",
    "Verif.Props.C58_tcp_view"
   ],
   "note": "False of the code: the length fields are written by build(); after flags() the TCP data offset is zero."
  },
  {
   "property": "C83",
   "status": "partial",
   "theorems": [
    "Verif.Props.C83_v6_refuted",
    "Verif.Props.C59_udp_is_valid_total",
    "Verif.Props.C59_tcp_is_valid_total"
   ],
   "note": "False of the code: unimplemented!() panics."
  },
  {
   "property": "C84",
   "status": "proved",
   "theorems": [
    "Verif.Props.C84_v4_burst_detected",
    "Verif.Props.C84_icmp_burst_detected",
    "Verif.Props.C84_udp_burst_detected",
    "Verif.Props.C84_tcp_burst_detected",
    "Verif.Props.C84_udp_address_detected",
    "Verif.Props.C84_tcp_address_detected",
    "Verif.Props.C84_exception"
   ],
   "note": ""
  },
  {
   "property": "C85",
   "status": "proved",
   "theorems": [
    "Verif.Props.C85_ipv4_user_finalizers",
    "Verif.Props.C85_ethernet_user_finalizers",
    "Verif.Props.C85_ether_user_finalizers",
    "Verif.Props.C85_no_finalizers",
    "Verif.Props.C85_outermost_sees_finished",
    "Verif.Props.C85_outermost_ipv4_sees_finished"
   ],
   "note": ""
  },
  {
   "property": "C86",
   "status": "proved",
   "theorems": [
    "Verif.Props.C86_ethernet_edits",
    "Verif.Props.C86_ipv4_edits",
    "Verif.Props.C86_ether_edits",
    "Verif.Props.C86_slice_edits",
    "Verif.Props.C86_icmp_edits",
    "Verif.Props.C86_edit_before_kind"
   ],
   "note": ""
  },
  {
   "property": "C87",
   "status": "partial",
   "theorems": [
    "Verif.Props.C87_kind_edit_refuted"
   ],
   "note": "False of the code: the edit does not set the builder's kind flag; build() fails with InvalidPacket unless request() or reply() was called."
  },
  {
   "property": "C88",
   "status": "proved",
   "theorems": [
    "Verif.Props.C88_v4_padding",
    "Verif.Props.C88_udp_padding",
    "Verif.Props.C88_tcp_padding",
    "Verif.Props.C88_frame_padding"
   ],
   "note": ""
  },
  {
   "property": "C89",
   "status": "partial",
   "theorems": [
    "Verif.Props.C89_udp_surplus_refuted",
    "Verif.Props.C89_udp_update_refuted",
    "Verif.Props.C89_udp_exact_partial"
   ],
   "note": "False of the code: the checksum runs over the whole buffer with the buffer's length in the pseudo header. Proved where the buffer ends with the datagram."
  },
  {
   "property": "C90",
   "status": "proved",
   "theorems": [
    "Verif.Props.C90_v4_swap",
    "Verif.Props.C90_udp_swap",
    "Verif.Props.C90_tcp_swap"
   ],
   "note": ""
  },
  {
   "property": "C91",
   "status": "partial",
   "theorems": [
    "Verif.Props.C91_tcp_checksum_fits_partial",
    "Verif.Props.C91_tcp_checksum_small_partial",
    "Verif.Props.C91_tcp_checksum_large_refuted"
   ],
   "note": "False of the code once the 16-bit words sum to 2^32 (segments above about 128 KiB): panic with overflow checks, a wrong value without. Proved below."
  },
  {
   "property": "C92",
   "status": "proved",
   "theorems": [
    "Verif.Props.C92_min_attained",
    "Verif.Props.C92_max_attained",
    "Verif.Props.C92_header_max_attained"
   ],
   "note": ""
  },
  {
   "property": "C93",
   "status": "partial",
   "theorems": [
    "Verif.Props.C93_reparse",
    "Verif.Props.C93_v4_reparse_iff",
    "Verif.Props.C93_others_reparse_iff",
    "Verif.Props.C93_reparse_refuted"
   ],
   "note": ""
  },
  {
   "property": "C94",
   "status": "partial",
   "theorems": [
    "Verif.Props.C94_ether_write_back",
    "Verif.Props.C94_v4_write_back_partial",
    "Verif.Props.C94_v4_write_back_iff",
    "Verif.Props.C94_udp_write_back",
    "Verif.Props.C94_tcp_write_back_partial",
    "Verif.Props.C94_tcp_flags_refuted",
    "Verif.Props.C94_echo_write_back",
    "Verif.Props.C94_timestamp_write_back_partial",
    "Verif.Props.C94_information_write_back_partial",
    "Verif.Props.C94_icmp_make_refuted",
    "Verif.Props.C94_v4_refuted"
   ],
   "note": ""
  },
  {
   "property": "C95",
   "status": "partial",
   "theorems": [
    "Verif.Props.C95_udp_rebuild_partial",
    "Verif.Props.C95_tcp_rebuild_partial",
    "Verif.Props.C95_echo_rebuild_partial",
    "Verif.Props.C95_timestamp_rebuild_partial",
    "Verif.Props.C95_information_rebuild_partial",
    "Verif.Props.C95_ether_rebuild",
    "Verif.Props.C95_frame_rebuild",
    "Verif.Props.C95_dont_fragment_refuted"
   ],
   "note": "Proved for Ethernet frames and for plain IPv4 packets (no options, no flags) with the five inner protocols; false of the code for packets with DF set, because flags() sets no flag bit (only offset() with a word above 13 bits reaches them, see C112)."
  },
  {
   "property": "C96",
   "status": "proved",
   "theorems": [
    "Verif.Props.C96_ether_unchecked",
    "Verif.Props.C96_v4_unchecked",
    "Verif.Props.C96_v4_views_unchecked",
    "Verif.Props.C96_udp_unchecked",
    "Verif.Props.C96_tcp_unchecked",
    "Verif.Props.C96_icmp_unchecked",
    "Verif.Props.C96_ip_unchecked",
    "Verif.Props.C96_ether_setters_unchecked",
    "Verif.Props.C96_v4_setters_unchecked",
    "Verif.Props.C96_udp_setters_unchecked",
    "Verif.Props.C96_tcp_setters_unchecked",
    "Verif.Props.C96_icmp_setters_unchecked",
    "Verif.Props.C96_as_ref_profile"
   ],
   "note": ""
  },
  {
   "property": "C97",
   "status": "partial",
   "theorems": [
    "Verif.Props.C97_offset_dscp_partial",
    "Verif.Props.C97_flags_refuted",
    "Verif.Props.C97_no_flag_refuted",
    "Verif.Props.C97_ecn_refuted",
    "Verif.Props.C98_builder_words"
   ],
   "note": "False of the code for ecn() and flags(); offset() and dscp() are right when they come last. What happens exactly: C98."
  },
  {
   "property": "C98",
   "status": "proved",
   "theorems": [
    "Verif.Props.C98_builder_words"
   ],
   "note": ""
  },
  {
   "property": "C99",
   "status": "partial",
   "theorems": [
    "Verif.Props.C99_option_bounds_partial",
    "Verif.Props.C99_zero_length_refuted",
    "Verif.Props.C99_option_bounds_attained_partial",
    "Verif.Props.C99_option_payload_max_refuted",
    "Verif.Props.C99_option_slices_partial"
   ],
   "note": "Proved: header sizes, the exact condition for the payload bound (length() at most 34), slices of complete options. False of the code for options of 35 to 40 bytes and for length 0. Options of length 1 are C70."
  },
  {
   "property": "C100",
   "status": "proved",
   "theorems": [
    "Verif.Props.C100_udp_in_frame",
    "Verif.Props.C100_tcp_in_frame",
    "Verif.Props.C100_echo_in_frame",
    "Verif.Props.C100_timestamp_in_frame",
    "Verif.Props.C100_information_in_frame"
   ],
   "note": ""
  },
  {
   "property": "C101",
   "status": "proved",
   "theorems": [
    "Verif.Props.C101_udp_readdressed",
    "Verif.Props.C101_tcp_readdressed",
    "Verif.Props.C101_udp_stale",
    "Verif.Props.C101_tcp_stale",
    "Verif.Props.C101_new_source"
   ],
   "note": ""
  },
  {
   "property": "C102",
   "status": "proved",
   "theorems": [
    "Verif.Props.C102_ipv4_bytes",
    "Verif.Props.C102_udp_bytes",
    "Verif.Props.C102_tcp_bytes",
    "Verif.Props.C102_echo_bytes",
    "Verif.Props.C102_timestamp_bytes",
    "Verif.Props.C102_information_bytes",
    "Verif.Props.C102_icmp_in_ipv4",
    "Verif.Props.C102_frame_bytes"
   ],
   "note": ""
  },
  {
   "property": "C103",
   "status": "proved",
   "theorems": [
    "Verif.Props.C103_v4_valid_iff_stable",
    "Verif.Props.C103_udp_valid_iff_stable",
    "Verif.Props.C103_tcp_valid_iff_stable",
    "Verif.Props.C103_v4_same_bytes",
    "Verif.Props.C103_v4_sessions",
    "Verif.Props.C103_udp_same_bytes",
    "Verif.Props.C103_udp_sessions",
    "Verif.Props.C103_tcp_same_bytes",
    "Verif.Props.C103_tcp_sessions",
    "Verif.Props.C103_icmp_valid_iff_stable",
    "Verif.Props.C103_echo_same_bytes",
    "Verif.Props.C103_timestamp_same_bytes",
    "Verif.Props.C103_information_same_bytes",
    "Verif.Props.C103_icmp_sessions"
   ],
   "note": ""
  },
  {
   "property": "C104",
   "status": "proved",
   "theorems": [
    "Verif.Props.C104_ether",
    "Verif.Props.C104_udp",
    "Verif.Props.C104_tcp",
    "Verif.Props.C104_raw",
    "Verif.Props.C104_echo",
    "Verif.Props.C104_icmp_echo",
    "Verif.Props.C104_frame_udp",
    "Verif.Props.C104_frame_tcp",
    "Verif.Props.C104_frame_raw",
    "Verif.Props.C104_frame_echo"
   ],
   "note": ""
  },
  {
   "property": "C105",
   "status": "proved",
   "theorems": [
    "Verif.Props.C105_echo_mut",
    "Verif.Props.C105_timestamp_mut",
    "Verif.Props.C105_information_mut",
    "Verif.Props.C105_refused",
    "Verif.Props.C105_history"
   ],
   "note": ""
  },
  {
   "property": "C106",
   "status": "proved",
   "theorems": [
    "Verif.Props.C106_header_mut",
    "Verif.Props.C106_as_mut",
    "Verif.Props.C106_replace"
   ],
   "note": ""
  },
  {
   "property": "C107",
   "status": "proved",
   "theorems": [
    "Verif.Props.C107_same_outcome",
    "Verif.Props.C107_or_full",
    "Verif.Props.C107_capacity",
    "Verif.Props.C107_dynamic",
    "Verif.Props.C107_like_dynamic",
    "Verif.Props.C107_repaired_slice",
    "Verif.Props.C107_not_slice"
   ],
   "note": ""
  },
  {
   "property": "C108",
   "status": "partial",
   "theorems": [
    "Verif.Props.C108_option_new_partial",
    "Verif.Props.C108_option_new_panics_refuted",
    "Verif.Props.C108_option_header_mut",
    "Verif.Props.C108_option_payload_mut",
    "Verif.Props.C108_one_byte_payload_refuted",
    "Verif.Props.C108_payload_inside_partial"
   ],
   "note": "Proved: exact acceptance for every buffer but one lone byte that asks for a length (which panics), the writable regions, and exactly when payload_mut() lies inside the option. False of the code for that lone byte and for one-byte options, whose payload_mut() is everything behind them."
  },
  {
   "property": "C109",
   "status": "proved",
   "theorems": [
    "Verif.Props.C109_behind",
    "Verif.Props.C109_static",
    "Verif.Props.C109_any_buffer",
    "Verif.Props.C109_udp_behind",
    "Verif.Props.C109_tcp_behind",
    "Verif.Props.C109_refused_behind",
    "Verif.Props.C109_static_transport"
   ],
   "note": ""
  },
  {
   "property": "C110",
   "status": "proved",
   "theorems": [
    "Verif.Props.C110_v4_exact",
    "Verif.Props.C110_icmp_exact",
    "Verif.Props.C110_udp_exact",
    "Verif.Props.C110_tcp_exact",
    "Verif.Props.C110_v4_missed",
    "Verif.Props.C110_icmp_missed",
    "Verif.Props.C110_udp_missed",
    "Verif.Props.C110_tcp_missed",
    "Verif.Props.C110_tcp_reordered",
    "Verif.Props.C110_v4_field",
    "Verif.Props.C110_icmp_field",
    "Verif.Props.C110_udp_field",
    "Verif.Props.C110_tcp_field",
    "Verif.Props.C110_v4_setters",
    "Verif.Props.C110_udp_setters",
    "Verif.Props.C110_tcp_setters",
    "Verif.Props.C110_icmp_setters"
   ],
   "note": ""
  },
  {
   "property": "C111",
   "status": "proved",
   "theorems": [
    "Verif.Props.C111_setters",
    "Verif.Props.C111_v4_session",
    "Verif.Props.C111_as_packet_mut",
    "Verif.Props.C111_v4_as_packet_mut",
    "Verif.Props.C111_udp_as_packet_mut"
   ],
   "note": ""
  },
  {
   "property": "C112",
   "status": "proved",
   "theorems": [
    "Verif.Props.C112_udp",
    "Verif.Props.C112_tcp",
    "Verif.Props.C112_icmp",
    "Verif.Props.C112_icmp_in_ipv4",
    "Verif.Props.C112_ipv4",
    "Verif.Props.C112_ether",
    "Verif.Props.C112_frame"
   ],
   "note": ""
  },
  {
   "property": "C113",
   "status": "proved",
   "theorems": [
    "Verif.Props.C113_ether",
    "Verif.Props.C113_v4",
    "Verif.Props.C113_udp",
    "Verif.Props.C113_tcp",
    "Verif.Props.C113_echo",
    "Verif.Props.C113_timestamp",
    "Verif.Props.C113_information"
   ],
   "note": ""
  },
  {
   "property": "C114",
   "status": "proved",
   "theorems": [
    "Verif.Props.C114_v4_setter_panics",
    "Verif.Props.C114_v4_setter_works",
    "Verif.Props.C114_v4_checked",
    "Verif.Props.C114_v4_checked_panics"
   ],
   "note": ""
  },
  {
   "property": "C115",
   "status": "proved",
   "theorems": [
    "Verif.Props.C115_frame_refused",
    "Verif.Props.C115_packet_refused",
    "Verif.Props.C115_payload_refused",
    "Verif.Props.C115_any_frame",
    "Verif.Props.C115_outcome",
    "Verif.Props.C115_tcp_panics_iff"
   ],
   "note": ""
  },
  {
   "property": "C116",
   "status": "proved",
   "theorems": [
    "Verif.Props.C116_tcp_setter",
    "Verif.Props.C116_tcp_checked_short",
    "Verif.Props.C116_tcp_checked_panics_iff"
   ],
   "note": ""
  },
  {
   "property": "C117",
   "status": "proved",
   "theorems": [
    "Verif.Props.C117_v4",
    "Verif.Props.C117_udp",
    "Verif.Props.C117_icmp",
    "Verif.Props.C117_tcp",
    "Verif.Props.C117_v4_setter_panics",
    "Verif.Props.C117_v4_aborts",
    "Verif.Props.C117_tcp_flags",
    "Verif.Props.C117_tcp_short"
   ],
   "note": ""
  },
  {
   "property": "C118",
   "status": "partial",
   "theorems": [
    "Verif.Props.C118_programs",
    "Verif.Props.C118_ether_partial",
    "Verif.Props.C118_ipv4_partial",
    "Verif.Props.C118_ethernet_partial",
    "Verif.Props.C118_icmp_partial",
    "Verif.Props.C118_ether_payload",
    "Verif.Props.C118_ipv4_payload",
    "Verif.Props.C118_ethernet_payload",
    "Verif.Props.C118_rest_untouched_refuted"
   ],
   "note": "Proved for every program without a payload. False of the code with one (Slice::more moves the layer): exactly which bytes behind the packet are overwritten is C118_*_payload."
  },
  {
   "property": "C119",
   "status": "partial",
   "theorems": [
    "Verif.Props.C119_ether_partial",
    "Verif.Props.C119_udp_partial",
    "Verif.Props.C119_frame_udp_partial",
    "Verif.Props.C119_tcp_partial",
    "Verif.Props.C119_frame_tcp_partial",
    "Verif.Props.C119_raw",
    "Verif.Props.C119_frame_raw",
    "Verif.Props.C119_echo",
    "Verif.Props.C119_icmp_echo",
    "Verif.Props.C119_frame_echo",
    "Verif.Props.C119_late_calls_refuted"
   ],
   "note": "False of the code (Slice::more moves the layer). Proved: what a program with later calls builds exactly, its last byte excepted, and that raw IPv4 and echo payloads never build."
  },
  {
   "property": "C120",
   "status": "proved",
   "theorems": [
    "Verif.Props.C120_v4",
    "Verif.Props.C120_icmp",
    "Verif.Props.C120_udp",
    "Verif.Props.C120_tcp",
    "Verif.Props.C120_forward",
    "Verif.Props.C120_nat_v4",
    "Verif.Props.C120_nat_udp",
    "Verif.Props.C120_nat_tcp"
   ],
   "note": ""
  },
  {
   "property": "C121",
   "status": "proved",
   "theorems": [
    "Verif.Props.C121_packets",
    "Verif.Props.C121_views",
    "Verif.Props.C121_sessions",
    "Verif.Props.C121_buffers",
    "Verif.Props.C121_programs",
    "Verif.Props.C121_programs_more",
    "Verif.Props.C121_checksums",
    "Verif.Props.C121_accepted_views",
    "Verif.Props.C121_options",
    "Verif.Props.C121_guards",
    "Verif.Props.C121_dynamic",
    "Verif.Props.C121_differences"
   ],
   "note": ""
  },
  {
   "property": "C122",
   "status": "proved",
   "theorems": [
    "Verif.Props.C122_again",
    "Verif.Props.C122_final",
    "Verif.Props.C122_only_asked",
    "Verif.Props.C122_refused",
    "Verif.Props.C122_lists",
    "Verif.Props.C122_breaks",
    "Verif.Props.C122_success",
    "Verif.Props.C122_profiles",
    "Verif.Props.C122_contract",
    "Verif.Props.C122_contract_ends",
    "Verif.Props.C122_slice"
   ],
   "note": ""
  },
  {
   "property": "C123",
   "status": "proved",
   "theorems": [
    "Verif.Props.C123_packets",
    "Verif.Props.C123_views",
    "Verif.Props.C123_sessions",
    "Verif.Props.C123_programs",
    "Verif.Props.C123_programs_more",
    "Verif.Props.C123_iterators",
    "Verif.Props.C123_tested",
    "Verif.Props.C123_checksums",
    "Verif.Props.C123_accepted_views",
    "Verif.Props.C123_dynamic",
    "Verif.Props.C123_differences"
   ],
   "note": ""
  },
  {
   "property": "C124",
   "status": "proved",
   "theorems": [
    "Verif.Props.C124_dynamic_observed",
    "Verif.Props.C124_dynamic_histories",
    "Verif.Props.C124_clone_clear",
    "Verif.Props.C124_slice_histories",
    "Verif.Props.C124_slice_clear"
   ],
   "note": ""
  },
  {
   "property": "C125",
   "status": "proved",
   "theorems": [
    "Verif.Props.C125_default",
    "Verif.Props.C125_chains",
    "Verif.Props.C125_alone"
   ],
   "note": ""
  },
  {
   "property": "C126",
   "status": "proved",
   "theorems": [
    "Verif.Props.C126_tcp_set",
    "Verif.Props.C126_tcp_operations",
    "Verif.Props.C126_tcp_tests",
    "Verif.Props.C126_v4_set",
    "Verif.Props.C126_v4_operations",
    "Verif.Props.C126_v4_tests",
    "Verif.Props.C126_tcp_wire",
    "Verif.Props.C126_tcp_written",
    "Verif.Props.C126_tcp_built"
   ],
   "note": ""
  },
  {
   "property": "C127",
   "status": "proved",
   "theorems": [
    "Verif.Props.C127_udp_quoted",
    "Verif.Props.C127_tcp_quoted",
    "Verif.Props.C127_echo_quoted"
   ],
   "note": ""
  },
  {
   "property": "C128",
   "status": "proved",
   "theorems": [
    "Verif.Props.C128_hops",
    "Verif.Props.C128_hop_total",
    "Verif.Props.C128_udp_delivered",
    "Verif.Props.C128_tcp_delivered"
   ],
   "note": ""
  },
  {
   "property": "C129",
   "status": "proved",
   "theorems": [
    "Verif.Props.C129_ether",
    "Verif.Props.C129_icmp",
    "Verif.Props.C129_ipv4",
    "Verif.Props.C129_ethernet"
   ],
   "note": ""
  },
  {
   "property": "C130",
   "status": "proved",
   "theorems": [
    "Verif.Props.C130_path",
    "Verif.Props.C130_same",
    "Verif.Props.C130_undo",
    "Verif.Props.C130_answer",
    "Verif.Props.C130_udp_built",
    "Verif.Props.C130_tcp_built"
   ],
   "note": ""
  },
  {
   "property": "C131",
   "status": "proved",
   "theorems": [
    "Verif.Props.C131_ipv4",
    "Verif.Props.C131_ethernet",
    "Verif.Props.C131_icmp",
    "Verif.Props.C131_ether",
    "Verif.Props.C131_room"
   ],
   "note": ""
  },
  {
   "property": "C132",
   "status": "proved",
   "theorems": [
    "Verif.Props.C132_travel",
    "Verif.Props.C132_same",
    "Verif.Props.C132_routers_first",
    "Verif.Props.C132_udp_as_built",
    "Verif.Props.C132_tcp_as_built"
   ],
   "note": ""
  },
  {
   "property": "C133",
   "status": "proved",
   "theorems": [
    "Verif.Props.C133_answer",
    "Verif.Props.C133_no_loop",
    "Verif.Props.C133_round_trip",
    "Verif.Props.C133_built",
    "Verif.Props.C133_as_built"
   ],
   "note": ""
  },
  {
   "property": "C134",
   "status": "proved",
   "theorems": [
    "Verif.Props.C134_exact",
    "Verif.Props.C134_chunks",
    "Verif.Props.C134_stream",
    "Verif.Props.C134_prefix",
    "Verif.Props.C134_unique",
    "Verif.Props.C134_built",
    "Verif.Props.C134_edit"
   ],
   "note": ""
  },
  {
   "property": "C135",
   "status": "proved",
   "theorems": [
    "Verif.Props.C135_not_mine",
    "Verif.Props.C135_walk",
    "Verif.Props.C135_ping",
    "Verif.Props.C135_built"
   ],
   "note": ""
  },
  {
   "property": "C136",
   "status": "proved",
   "theorems": [
    "Verif.Props.C136_arrivals",
    "Verif.Props.C136_complete",
    "Verif.Props.C136_built",
    "Verif.Props.C136_hops",
    "Verif.Props.C136_damaged"
   ],
   "note": ""
  },
  {
   "property": "C137",
   "status": "proved",
   "theorems": [
    "Verif.Props.C137_dissect",
    "Verif.Props.C137_total",
    "Verif.Props.C137_built_udp",
    "Verif.Props.C137_built_tcp",
    "Verif.Props.C137_built_echo",
    "Verif.Props.C137_built_timestamp"
   ],
   "note": ""
  },
  {
   "property": "C138",
   "status": "proved",
   "theorems": [
    "Verif.Props.C138_serve",
    "Verif.Props.C138_reply",
    "Verif.Props.C138_total",
    "Verif.Props.C138_round_trip"
   ],
   "note": ""
  },
  {
   "property": "C139",
   "status": "proved",
   "theorems": [
    "Verif.Props.C139_refuse",
    "Verif.Props.C139_no_loop",
    "Verif.Props.C139_total",
    "Verif.Props.C139_connect"
   ],
   "note": ""
  },
  {
   "property": "C140",
   "status": "proved",
   "theorems": [
    "Verif.Props.C140_carried",
    "Verif.Props.C140_exchange",
    "Verif.Props.C140_hops"
   ],
   "note": ""
  },
  {
   "property": "C141",
   "status": "proved",
   "theorems": [
    "Verif.Props.C141_outward",
    "Verif.Props.C141_inward",
    "Verif.Props.C141_other",
    "Verif.Props.C141_total",
    "Verif.Props.C141_return",
    "Verif.Props.C141_separate",
    "Verif.Props.C141_unsolicited"
   ],
   "note": ""
  },
  {
   "property": "C142",
   "status": "proved",
   "theorems": [
    "Verif.Props.C142_conversation",
    "Verif.Props.C142_internet",
    "Verif.Props.C142_nested",
    "Verif.Props.C142_built"
   ],
   "note": ""
  }
 ]
}
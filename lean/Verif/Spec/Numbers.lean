import Verif.Model.Tables

/-!
# Assigned numbers

The numbers the IEEE / IANA registries and the RFCs assign to the names the crate uses, written from
the registries and not from the tables of the crate.  (IEEE 802 EtherTypes; IANA "Protocol Numbers";
RFC 792, 950, 1256, 1393 for ICMP types; RFC 792, 1122, 1812 for codes; RFC 793, 7323, 2018 for TCP
options; RFC 791, 1108, 2113, ... for IPv4 option numbers.)
-/

namespace Verif.Spec

/-- EtherTypes. -/
def etherTypes : List (EtherProtocol × Nat) :=
  [(.ipv4, 0x0800), (.arp, 0x0806), (.wakeOnLan, 0x0842), (.trill, 0x22F3), (.decNet, 0x6003),
   (.rarp, 0x8035), (.appleTalk, 0x809B), (.aarp, 0x80F3), (.vlan, 0x8100), (.ipx, 0x8137),
   (.qnx, 0x8204), (.ipv6, 0x86DD), (.flowControl, 0x8808), (.cobraNet, 0x8819), (.mpls, 0x8847),
   (.mplsMulticast, 0x8848), (.pppoeDiscovery, 0x8863), (.pppoeSession, 0x8864), (.pBridge, 0x88A8),
   (.lldp, 0x88CC), (.ptp, 0x88F7), (.cfm, 0x8902), (.qinQ, 0x9100)]

/-- IP protocol numbers. -/
def ipProtocols : List (IpProtocol × Nat) :=
  [(.hopopt, 0), (.icmp, 1), (.igmp, 2), (.ggp, 3), (.ipv4, 4), (.st, 5), (.tcp, 6), (.cbt, 7),
   (.egp, 8), (.igp, 9), (.bbnRccMon, 10), (.nvpII, 11), (.pup, 12), (.argus, 13), (.emcon, 14),
   (.xnet, 15), (.chaos, 16), (.udp, 17), (.mux, 18), (.dcnMeas, 19), (.hmp, 20), (.prm, 21),
   (.xnsIdp, 22), (.trunk1, 23), (.trunk2, 24), (.leaf1, 25), (.leaf2, 26), (.rdp, 27), (.irtp, 28),
   (.isoTp4, 29), (.netblt, 30), (.mfeNsp, 31), (.meritInp, 32), (.dccp, 33), (.threePc, 34),
   (.idpr, 35), (.xtp, 36), (.ddp, 37), (.idprCmtp, 38), (.tpPlusPlus, 39), (.il, 40), (.ipv6, 41),
   (.sdrp, 42), (.ipv6Route, 43), (.ipv6Frag, 44), (.idrp, 45), (.rsvp, 46), (.gre, 47), (.dsr, 48),
   (.bna, 49), (.esp, 50), (.ah, 51), (.iNlsp, 52), (.swipe, 53), (.narp, 54), (.mobile, 55),
   (.tlsp, 56), (.skip, 57), (.ipv6Icmp, 58), (.ipv6NoNxt, 59), (.ipv6Opts, 60), (.hostInternal, 61),
   (.cftp, 62), (.localNetwork, 63), (.satExpak, 64), (.kryptolan, 65), (.rvd, 66), (.ippc, 67),
   (.distributedFs, 68), (.satMon, 69), (.visa, 70), (.ipcv, 71), (.cpnx, 72), (.cphb, 73),
   (.wsn, 74), (.pvp, 75), (.brSatMon, 76), (.sunNd, 77), (.wbMon, 78), (.wbExpak, 79), (.isoIp, 80),
   (.vmtp, 81), (.secureVmtp, 82), (.vines, 83), (.ttpOrIptm, 84), (.nsfnetIgp, 85), (.dgp, 86),
   (.tcf, 87), (.eigrp, 88), (.ospfigP, 89), (.spriteRpc, 90), (.larp, 91), (.mtp, 92), (.ax25, 93),
   (.ipIp, 94), (.micp, 95), (.sccSp, 96), (.etherip, 97), (.encap, 98), (.privEncryption, 99),
   (.gmtp, 100), (.ifmp, 101), (.pnni, 102), (.pim, 103), (.aris, 104), (.scps, 105), (.qnx, 106),
   (.aN, 107), (.ipComp, 108), (.snp, 109), (.compaqPeer, 110), (.ipxInIp, 111), (.vrrp, 112),
   (.pgm, 113), (.zeroHop, 114), (.l2tp, 115), (.ddx, 116), (.iatp, 117), (.stp, 118), (.srp, 119),
   (.uti, 120), (.smp, 121), (.sm, 122), (.ptp, 123), (.isisOverIpv4, 124), (.fire, 125),
   (.crtp, 126), (.crudp, 127), (.sscopmce, 128), (.iplt, 129), (.sps, 130), (.pipe, 131),
   (.sctp, 132), (.fc, 133), (.rsvpE2eIgnore, 134), (.mobilityHeader, 135), (.udpLite, 136),
   (.mplsInIp, 137), (.manet, 138), (.hip, 139), (.shim6, 140), (.wesp, 141), (.rohc, 142),
   (.test1, 253), (.test2, 254)]

/-- ICMP types. -/
def icmpTypes : List (IcmpKind × Nat) :=
  [(.echoReply, 0), (.destinationUnreachable, 3), (.sourceQuench, 4), (.redirectMessage, 5),
   (.echoRequest, 8), (.routerAdvertisement, 9), (.routerSolicitation, 10), (.timeExceeded, 11),
   (.parameterProblem, 12), (.timestampRequest, 13), (.timestampReply, 14), (.informationRequest, 15),
   (.informationReply, 16), (.addressMaskRequest, 17), (.addressMaskReply, 18), (.traceRoute, 30)]

/-- Codes of destination-unreachable messages. -/
def unreachableCodes : List (CodeDestinationUnreachable × Nat) :=
  [(.destinationNetworkUnreachable, 0), (.destinationHostUnreachable, 1),
   (.destinationProtocolUnreachable, 2), (.destinationPortUnreachable, 3), (.fragmentationRequired, 4),
   (.sourceRouteFailed, 5), (.destinationNetworkUnknown, 6), (.destinationHostUnknown, 7),
   (.sourceHostIsolated, 8), (.networkAdministrativelyProhibited, 9),
   (.hostAdministrativelyProhibited, 10), (.networkUnreachableForTos, 11), (.hostUnreachableForTos, 12),
   (.communicationAdministrativelyProhibited, 13), (.hostPrecedenceViolation, 14),
   (.precedentCutoffInEffect, 15)]

/-- Codes of redirect messages. -/
def redirectCodes : List (CodeRedirectMessage × Nat) :=
  [(.redirectDatagramForNetwork, 0), (.redirectDatagramForHost, 1),
   (.redirectDatagramForTosAndNetwork, 2), (.redirectDatagramForTosAndHost, 3)]

/-- Codes of parameter-problem messages. -/
def parameterCodes : List (CodeParameterProblem × Nat) :=
  [(.pointerIndicatesError, 0), (.missingRequiredData, 1), (.badLength, 2)]

/-- TCP option kinds. -/
def tcpOptions : List (TcpOptNumber × Nat) :=
  [(.end, 0), (.noOperation, 1), (.maximumSegmentSize, 2), (.windowScale, 3),
   (.selectiveAcknowledgmentPermitted, 4), (.selectiveAcknowledgment, 5), (.timestamp, 8)]

/-- IPv4 option numbers. -/
def v4Options : List (V4OptNumber × Nat) :=
  [(.end, 0), (.noOperation, 1), (.security, 2), (.looseSourceRoute, 3), (.timeStamp, 4),
   (.extendedSecurity, 5), (.commercialSecurity, 6), (.recordRoute, 7), (.streamId, 8),
   (.strictSourceRoute, 9), (.experimentalMeasurement, 10), (.mtuProbe, 11), (.mtuReply, 12),
   (.experimentalFlowControl, 13), (.experimentalAccessControl, 14), (.imiTrafficDescriptor, 16),
   (.extendedInternetProtocol, 17), (.traceRoute, 18), (.addressExtension, 19), (.routerAlert, 20),
   (.selectiveDirectedBroadcast, 21), (.dynamicPacketState, 23), (.upstreamMulticastPacket, 24),
   (.quickStart, 25)]

end Verif.Spec

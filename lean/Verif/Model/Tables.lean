import Verif.Rust

/-!
# Wire tables

Generated by `tools/mktables.py` from the Rust source, arm by arm.
-/

set_option maxRecDepth 4000

namespace Verif

/-- `src/ether/protocol.rs:17-89`, `enum Protocol`. -/
inductive EtherProtocol where
  | ipv4
  | arp
  | wakeOnLan
  | trill
  | decNet
  | rarp
  | appleTalk
  | aarp
  | ipx
  | qnx
  | ipv6
  | flowControl
  | cobraNet
  | mpls
  | mplsMulticast
  | pppoeDiscovery
  | pppoeSession
  | vlan
  | pBridge
  | lldp
  | ptp
  | cfm
  | qinQ
  | unknown (n : U16)
  deriving DecidableEq

namespace EtherProtocol

/-- `src/ether/protocol.rs:91-122`, `From<u16> for Protocol`. -/
def ofWire (v : U16) : EtherProtocol :=
  if v = 0x0800#16 then .ipv4 else
  if v = 0x0806#16 then .arp else
  if v = 0x0842#16 then .wakeOnLan else
  if v = 0x22f3#16 then .trill else
  if v = 0x6003#16 then .decNet else
  if v = 0x8035#16 then .rarp else
  if v = 0x809b#16 then .appleTalk else
  if v = 0x80f3#16 then .aarp else
  if v = 0x8137#16 then .ipx else
  if v = 0x8204#16 then .qnx else
  if v = 0x86dd#16 then .ipv6 else
  if v = 0x8808#16 then .flowControl else
  if v = 0x8819#16 then .cobraNet else
  if v = 0x8847#16 then .mpls else
  if v = 0x8848#16 then .mplsMulticast else
  if v = 0x8863#16 then .pppoeDiscovery else
  if v = 0x8864#16 then .pppoeSession else
  if v = 0x8100#16 then .vlan else
  if v = 0x88a8#16 then .pBridge else
  if v = 0x88cc#16 then .lldp else
  if v = 0x88f7#16 then .ptp else
  if v = 0x8902#16 then .cfm else
  if v = 0x9100#16 then .qinQ else
  .unknown v

/-- `src/ether/protocol.rs:124-155`, `Into<u16> for Protocol`. -/
def toWire : EtherProtocol → U16
  | .ipv4 => 0x0800#16
  | .arp => 0x0806#16
  | .wakeOnLan => 0x0842#16
  | .trill => 0x22f3#16
  | .decNet => 0x6003#16
  | .rarp => 0x8035#16
  | .appleTalk => 0x809b#16
  | .aarp => 0x80f3#16
  | .ipx => 0x8137#16
  | .qnx => 0x8204#16
  | .ipv6 => 0x86dd#16
  | .flowControl => 0x8808#16
  | .cobraNet => 0x8819#16
  | .mpls => 0x8847#16
  | .mplsMulticast => 0x8848#16
  | .pppoeDiscovery => 0x8863#16
  | .pppoeSession => 0x8864#16
  | .vlan => 0x8100#16
  | .pBridge => 0x88a8#16
  | .lldp => 0x88cc#16
  | .ptp => 0x88f7#16
  | .cfm => 0x8902#16
  | .qinQ => 0x9100#16
  | .unknown n => n


end EtherProtocol

/-- `src/ip/protocol.rs:17-455`, `enum Protocol`. -/
inductive IpProtocol where
  | hopopt
  | icmp
  | igmp
  | ggp
  | ipv4
  | st
  | tcp
  | cbt
  | egp
  | igp
  | bbnRccMon
  | nvpII
  | pup
  | argus
  | emcon
  | xnet
  | chaos
  | udp
  | mux
  | dcnMeas
  | hmp
  | prm
  | xnsIdp
  | trunk1
  | trunk2
  | leaf1
  | leaf2
  | rdp
  | irtp
  | isoTp4
  | netblt
  | mfeNsp
  | meritInp
  | dccp
  | threePc
  | idpr
  | xtp
  | ddp
  | idprCmtp
  | tpPlusPlus
  | il
  | ipv6
  | sdrp
  | ipv6Route
  | ipv6Frag
  | idrp
  | rsvp
  | gre
  | dsr
  | bna
  | esp
  | ah
  | iNlsp
  | swipe
  | narp
  | mobile
  | tlsp
  | skip
  | ipv6Icmp
  | ipv6NoNxt
  | ipv6Opts
  | hostInternal
  | cftp
  | localNetwork
  | satExpak
  | kryptolan
  | rvd
  | ippc
  | distributedFs
  | satMon
  | visa
  | ipcv
  | cpnx
  | cphb
  | wsn
  | pvp
  | brSatMon
  | sunNd
  | wbMon
  | wbExpak
  | isoIp
  | vmtp
  | secureVmtp
  | vines
  | ttpOrIptm
  | nsfnetIgp
  | dgp
  | tcf
  | eigrp
  | ospfigP
  | spriteRpc
  | larp
  | mtp
  | ax25
  | ipIp
  | micp
  | sccSp
  | etherip
  | encap
  | privEncryption
  | gmtp
  | ifmp
  | pnni
  | pim
  | aris
  | scps
  | qnx
  | aN
  | ipComp
  | snp
  | compaqPeer
  | ipxInIp
  | vrrp
  | pgm
  | zeroHop
  | l2tp
  | ddx
  | iatp
  | stp
  | srp
  | uti
  | smp
  | sm
  | ptp
  | isisOverIpv4
  | fire
  | crtp
  | crudp
  | sscopmce
  | iplt
  | sps
  | pipe
  | sctp
  | fc
  | rsvpE2eIgnore
  | mobilityHeader
  | udpLite
  | mplsInIp
  | manet
  | hip
  | shim6
  | wesp
  | rohc
  | test1
  | test2
  | unknown (n : U8)
  deriving DecidableEq

namespace IpProtocol

/-- `src/ip/protocol.rs:457-610`, `From<u8> for Protocol`. -/
def ofWire (v : U8) : IpProtocol :=
  if v = 0#8 then .hopopt else
  if v = 1#8 then .icmp else
  if v = 2#8 then .igmp else
  if v = 3#8 then .ggp else
  if v = 4#8 then .ipv4 else
  if v = 5#8 then .st else
  if v = 6#8 then .tcp else
  if v = 7#8 then .cbt else
  if v = 8#8 then .egp else
  if v = 9#8 then .igp else
  if v = 10#8 then .bbnRccMon else
  if v = 11#8 then .nvpII else
  if v = 12#8 then .pup else
  if v = 13#8 then .argus else
  if v = 14#8 then .emcon else
  if v = 15#8 then .xnet else
  if v = 16#8 then .chaos else
  if v = 17#8 then .udp else
  if v = 18#8 then .mux else
  if v = 19#8 then .dcnMeas else
  if v = 20#8 then .hmp else
  if v = 21#8 then .prm else
  if v = 22#8 then .xnsIdp else
  if v = 23#8 then .trunk1 else
  if v = 24#8 then .trunk2 else
  if v = 25#8 then .leaf1 else
  if v = 26#8 then .leaf2 else
  if v = 27#8 then .rdp else
  if v = 28#8 then .irtp else
  if v = 29#8 then .isoTp4 else
  if v = 30#8 then .netblt else
  if v = 31#8 then .mfeNsp else
  if v = 32#8 then .meritInp else
  if v = 33#8 then .dccp else
  if v = 34#8 then .threePc else
  if v = 35#8 then .idpr else
  if v = 36#8 then .xtp else
  if v = 37#8 then .ddp else
  if v = 38#8 then .idprCmtp else
  if v = 39#8 then .tpPlusPlus else
  if v = 40#8 then .il else
  if v = 41#8 then .ipv6 else
  if v = 42#8 then .sdrp else
  if v = 43#8 then .ipv6Route else
  if v = 44#8 then .ipv6Frag else
  if v = 45#8 then .idrp else
  if v = 46#8 then .rsvp else
  if v = 47#8 then .gre else
  if v = 48#8 then .dsr else
  if v = 49#8 then .bna else
  if v = 50#8 then .esp else
  if v = 51#8 then .ah else
  if v = 52#8 then .iNlsp else
  if v = 53#8 then .swipe else
  if v = 54#8 then .narp else
  if v = 55#8 then .mobile else
  if v = 56#8 then .tlsp else
  if v = 57#8 then .skip else
  if v = 58#8 then .ipv6Icmp else
  if v = 59#8 then .ipv6NoNxt else
  if v = 60#8 then .ipv6Opts else
  if v = 61#8 then .hostInternal else
  if v = 62#8 then .cftp else
  if v = 63#8 then .localNetwork else
  if v = 64#8 then .satExpak else
  if v = 65#8 then .kryptolan else
  if v = 66#8 then .rvd else
  if v = 67#8 then .ippc else
  if v = 68#8 then .distributedFs else
  if v = 69#8 then .satMon else
  if v = 70#8 then .visa else
  if v = 71#8 then .ipcv else
  if v = 72#8 then .cpnx else
  if v = 73#8 then .cphb else
  if v = 74#8 then .wsn else
  if v = 75#8 then .pvp else
  if v = 76#8 then .brSatMon else
  if v = 77#8 then .sunNd else
  if v = 78#8 then .wbMon else
  if v = 79#8 then .wbExpak else
  if v = 80#8 then .isoIp else
  if v = 81#8 then .vmtp else
  if v = 82#8 then .secureVmtp else
  if v = 83#8 then .vines else
  if v = 84#8 then .ttpOrIptm else
  if v = 85#8 then .nsfnetIgp else
  if v = 86#8 then .dgp else
  if v = 87#8 then .tcf else
  if v = 88#8 then .eigrp else
  if v = 89#8 then .ospfigP else
  if v = 90#8 then .spriteRpc else
  if v = 91#8 then .larp else
  if v = 92#8 then .mtp else
  if v = 93#8 then .ax25 else
  if v = 94#8 then .ipIp else
  if v = 95#8 then .micp else
  if v = 96#8 then .sccSp else
  if v = 97#8 then .etherip else
  if v = 98#8 then .encap else
  if v = 99#8 then .privEncryption else
  if v = 100#8 then .gmtp else
  if v = 101#8 then .ifmp else
  if v = 102#8 then .pnni else
  if v = 103#8 then .pim else
  if v = 104#8 then .aris else
  if v = 105#8 then .scps else
  if v = 106#8 then .qnx else
  if v = 107#8 then .aN else
  if v = 108#8 then .ipComp else
  if v = 109#8 then .snp else
  if v = 110#8 then .compaqPeer else
  if v = 111#8 then .ipxInIp else
  if v = 112#8 then .vrrp else
  if v = 113#8 then .pgm else
  if v = 114#8 then .zeroHop else
  if v = 115#8 then .l2tp else
  if v = 116#8 then .ddx else
  if v = 117#8 then .iatp else
  if v = 118#8 then .stp else
  if v = 119#8 then .srp else
  if v = 120#8 then .uti else
  if v = 121#8 then .smp else
  if v = 122#8 then .sm else
  if v = 123#8 then .ptp else
  if v = 124#8 then .isisOverIpv4 else
  if v = 125#8 then .fire else
  if v = 126#8 then .crtp else
  if v = 127#8 then .crudp else
  if v = 128#8 then .sscopmce else
  if v = 129#8 then .iplt else
  if v = 130#8 then .sps else
  if v = 131#8 then .pipe else
  if v = 132#8 then .sctp else
  if v = 133#8 then .fc else
  if v = 134#8 then .rsvpE2eIgnore else
  if v = 135#8 then .mobilityHeader else
  if v = 136#8 then .udpLite else
  if v = 137#8 then .mplsInIp else
  if v = 138#8 then .manet else
  if v = 139#8 then .hip else
  if v = 140#8 then .shim6 else
  if v = 141#8 then .wesp else
  if v = 142#8 then .rohc else
  if v = 253#8 then .test1 else
  if v = 254#8 then .test2 else
  .unknown v

/-- `src/ip/protocol.rs:612-765`, `Into<u8> for Protocol`. -/
def toWire : IpProtocol → U8
  | .hopopt => 0#8
  | .icmp => 1#8
  | .igmp => 2#8
  | .ggp => 3#8
  | .ipv4 => 4#8
  | .st => 5#8
  | .tcp => 6#8
  | .cbt => 7#8
  | .egp => 8#8
  | .igp => 9#8
  | .bbnRccMon => 10#8
  | .nvpII => 11#8
  | .pup => 12#8
  | .argus => 13#8
  | .emcon => 14#8
  | .xnet => 15#8
  | .chaos => 16#8
  | .udp => 17#8
  | .mux => 18#8
  | .dcnMeas => 19#8
  | .hmp => 20#8
  | .prm => 21#8
  | .xnsIdp => 22#8
  | .trunk1 => 23#8
  | .trunk2 => 24#8
  | .leaf1 => 25#8
  | .leaf2 => 26#8
  | .rdp => 27#8
  | .irtp => 28#8
  | .isoTp4 => 29#8
  | .netblt => 30#8
  | .mfeNsp => 31#8
  | .meritInp => 32#8
  | .dccp => 33#8
  | .threePc => 34#8
  | .idpr => 35#8
  | .xtp => 36#8
  | .ddp => 37#8
  | .idprCmtp => 38#8
  | .tpPlusPlus => 39#8
  | .il => 40#8
  | .ipv6 => 41#8
  | .sdrp => 42#8
  | .ipv6Route => 43#8
  | .ipv6Frag => 44#8
  | .idrp => 45#8
  | .rsvp => 46#8
  | .gre => 47#8
  | .dsr => 48#8
  | .bna => 49#8
  | .esp => 50#8
  | .ah => 51#8
  | .iNlsp => 52#8
  | .swipe => 53#8
  | .narp => 54#8
  | .mobile => 55#8
  | .tlsp => 56#8
  | .skip => 57#8
  | .ipv6Icmp => 58#8
  | .ipv6NoNxt => 59#8
  | .ipv6Opts => 60#8
  | .hostInternal => 61#8
  | .cftp => 62#8
  | .localNetwork => 63#8
  | .satExpak => 64#8
  | .kryptolan => 65#8
  | .rvd => 66#8
  | .ippc => 67#8
  | .distributedFs => 68#8
  | .satMon => 69#8
  | .visa => 70#8
  | .ipcv => 71#8
  | .cpnx => 72#8
  | .cphb => 73#8
  | .wsn => 74#8
  | .pvp => 75#8
  | .brSatMon => 76#8
  | .sunNd => 77#8
  | .wbMon => 78#8
  | .wbExpak => 79#8
  | .isoIp => 80#8
  | .vmtp => 81#8
  | .secureVmtp => 82#8
  | .vines => 83#8
  | .ttpOrIptm => 84#8
  | .nsfnetIgp => 85#8
  | .dgp => 86#8
  | .tcf => 87#8
  | .eigrp => 88#8
  | .ospfigP => 89#8
  | .spriteRpc => 90#8
  | .larp => 91#8
  | .mtp => 92#8
  | .ax25 => 93#8
  | .ipIp => 94#8
  | .micp => 95#8
  | .sccSp => 96#8
  | .etherip => 97#8
  | .encap => 98#8
  | .privEncryption => 99#8
  | .gmtp => 100#8
  | .ifmp => 101#8
  | .pnni => 102#8
  | .pim => 103#8
  | .aris => 104#8
  | .scps => 105#8
  | .qnx => 106#8
  | .aN => 107#8
  | .ipComp => 108#8
  | .snp => 109#8
  | .compaqPeer => 110#8
  | .ipxInIp => 111#8
  | .vrrp => 112#8
  | .pgm => 113#8
  | .zeroHop => 114#8
  | .l2tp => 115#8
  | .ddx => 116#8
  | .iatp => 117#8
  | .stp => 118#8
  | .srp => 119#8
  | .uti => 120#8
  | .smp => 121#8
  | .sm => 122#8
  | .ptp => 123#8
  | .isisOverIpv4 => 124#8
  | .fire => 125#8
  | .crtp => 126#8
  | .crudp => 127#8
  | .sscopmce => 128#8
  | .iplt => 129#8
  | .sps => 130#8
  | .pipe => 131#8
  | .sctp => 132#8
  | .fc => 133#8
  | .rsvpE2eIgnore => 134#8
  | .mobilityHeader => 135#8
  | .udpLite => 136#8
  | .mplsInIp => 137#8
  | .manet => 138#8
  | .hip => 139#8
  | .shim6 => 140#8
  | .wesp => 141#8
  | .rohc => 142#8
  | .test1 => 253#8
  | .test2 => 254#8
  | .unknown p => p


end IpProtocol

/-- `src/icmp/kind.rs:17-68`, `enum Kind`. -/
inductive IcmpKind where
  | echoReply
  | destinationUnreachable
  | sourceQuench
  | redirectMessage
  | echoRequest
  | routerAdvertisement
  | routerSolicitation
  | timeExceeded
  | parameterProblem
  | timestampRequest
  | timestampReply
  | informationRequest
  | informationReply
  | addressMaskRequest
  | addressMaskReply
  | traceRoute
  | unknown (n : U8)
  deriving DecidableEq

namespace IcmpKind

/-- `src/icmp/kind.rs:70-94`, `From<u8> for Kind`. -/
def ofWire (v : U8) : IcmpKind :=
  if v = 0#8 then .echoReply else
  if v = 3#8 then .destinationUnreachable else
  if v = 4#8 then .sourceQuench else
  if v = 5#8 then .redirectMessage else
  if v = 8#8 then .echoRequest else
  if v = 9#8 then .routerAdvertisement else
  if v = 10#8 then .routerSolicitation else
  if v = 11#8 then .timeExceeded else
  if v = 12#8 then .parameterProblem else
  if v = 13#8 then .timestampRequest else
  if v = 14#8 then .timestampReply else
  if v = 15#8 then .informationRequest else
  if v = 16#8 then .informationReply else
  if v = 17#8 then .addressMaskRequest else
  if v = 18#8 then .addressMaskReply else
  if v = 30#8 then .traceRoute else
  .unknown v

/-- `src/icmp/kind.rs:96-120`, `Into<u8> for Kind`. -/
def toWire : IcmpKind → U8
  | .echoReply => 0#8
  | .destinationUnreachable => 3#8
  | .sourceQuench => 4#8
  | .redirectMessage => 5#8
  | .echoRequest => 8#8
  | .routerAdvertisement => 9#8
  | .routerSolicitation => 10#8
  | .timeExceeded => 11#8
  | .parameterProblem => 12#8
  | .timestampRequest => 13#8
  | .timestampReply => 14#8
  | .informationRequest => 15#8
  | .informationReply => 16#8
  | .addressMaskRequest => 17#8
  | .addressMaskReply => 18#8
  | .traceRoute => 30#8
  | .unknown v => v


end IcmpKind

/-- `src/icmp/code.rs:17-68`, `enum DestinationUnreachable`. -/
inductive CodeDestinationUnreachable where
  | destinationNetworkUnreachable
  | destinationHostUnreachable
  | destinationProtocolUnreachable
  | destinationPortUnreachable
  | fragmentationRequired
  | sourceRouteFailed
  | destinationNetworkUnknown
  | destinationHostUnknown
  | sourceHostIsolated
  | networkAdministrativelyProhibited
  | hostAdministrativelyProhibited
  | networkUnreachableForTos
  | hostUnreachableForTos
  | communicationAdministrativelyProhibited
  | hostPrecedenceViolation
  | precedentCutoffInEffect
  | unknown (n : U8)
  deriving DecidableEq

namespace CodeDestinationUnreachable

/-- `src/icmp/code.rs:105-129`, `From<u8> for DestinationUnreachable`. -/
def ofWire (v : U8) : CodeDestinationUnreachable :=
  if v = 0#8 then .destinationNetworkUnreachable else
  if v = 1#8 then .destinationHostUnreachable else
  if v = 2#8 then .destinationProtocolUnreachable else
  if v = 3#8 then .destinationPortUnreachable else
  if v = 4#8 then .fragmentationRequired else
  if v = 5#8 then .sourceRouteFailed else
  if v = 6#8 then .destinationNetworkUnknown else
  if v = 7#8 then .destinationHostUnknown else
  if v = 8#8 then .sourceHostIsolated else
  if v = 9#8 then .networkAdministrativelyProhibited else
  if v = 10#8 then .hostAdministrativelyProhibited else
  if v = 11#8 then .networkUnreachableForTos else
  if v = 12#8 then .hostUnreachableForTos else
  if v = 13#8 then .communicationAdministrativelyProhibited else
  if v = 14#8 then .hostPrecedenceViolation else
  if v = 15#8 then .precedentCutoffInEffect else
  .unknown v

/-- `src/icmp/code.rs:131-155`, `Into<u8> for DestinationUnreachable`. -/
def toWire : CodeDestinationUnreachable → U8
  | .destinationNetworkUnreachable => 0#8
  | .destinationHostUnreachable => 1#8
  | .destinationProtocolUnreachable => 2#8
  | .destinationPortUnreachable => 3#8
  | .fragmentationRequired => 4#8
  | .sourceRouteFailed => 5#8
  | .destinationNetworkUnknown => 6#8
  | .destinationHostUnknown => 7#8
  | .sourceHostIsolated => 8#8
  | .networkAdministrativelyProhibited => 9#8
  | .hostAdministrativelyProhibited => 10#8
  | .networkUnreachableForTos => 11#8
  | .hostUnreachableForTos => 12#8
  | .communicationAdministrativelyProhibited => 13#8
  | .hostPrecedenceViolation => 14#8
  | .precedentCutoffInEffect => 15#8
  | .unknown v => v


end CodeDestinationUnreachable

/-- `src/icmp/code.rs:72-87`, `enum RedirectMessage`. -/
inductive CodeRedirectMessage where
  | redirectDatagramForNetwork
  | redirectDatagramForHost
  | redirectDatagramForTosAndNetwork
  | redirectDatagramForTosAndHost
  | unknown (n : U8)
  deriving DecidableEq

namespace CodeRedirectMessage

/-- `src/icmp/code.rs:157-169`, `From<u8> for RedirectMessage`. -/
def ofWire (v : U8) : CodeRedirectMessage :=
  if v = 0#8 then .redirectDatagramForNetwork else
  if v = 1#8 then .redirectDatagramForHost else
  if v = 2#8 then .redirectDatagramForTosAndNetwork else
  if v = 3#8 then .redirectDatagramForTosAndHost else
  .unknown v

/-- `src/icmp/code.rs:171-183`, `Into<u8> for RedirectMessage`. -/
def toWire : CodeRedirectMessage → U8
  | .redirectDatagramForNetwork => 0#8
  | .redirectDatagramForHost => 1#8
  | .redirectDatagramForTosAndNetwork => 2#8
  | .redirectDatagramForTosAndHost => 3#8
  | .unknown v => v


end CodeRedirectMessage

/-- `src/icmp/code.rs:91-103`, `enum ParameterProblem`. -/
inductive CodeParameterProblem where
  | pointerIndicatesError
  | missingRequiredData
  | badLength
  | unknown (n : U8)
  deriving DecidableEq

namespace CodeParameterProblem

/-- `src/icmp/code.rs:185-196`, `From<u8> for ParameterProblem`. -/
def ofWire (v : U8) : CodeParameterProblem :=
  if v = 0#8 then .pointerIndicatesError else
  if v = 1#8 then .missingRequiredData else
  if v = 2#8 then .badLength else
  .unknown v

/-- `src/icmp/code.rs:198-209`, `Into<u8> for ParameterProblem`. -/
def toWire : CodeParameterProblem → U8
  | .pointerIndicatesError => 0#8
  | .missingRequiredData => 1#8
  | .badLength => 2#8
  | .unknown v => v


end CodeParameterProblem

/-- `src/tcp/option.rs:47-71`, `enum Number`. -/
inductive TcpOptNumber where
  | end
  | noOperation
  | maximumSegmentSize
  | windowScale
  | selectiveAcknowledgmentPermitted
  | selectiveAcknowledgment
  | timestamp
  | unknown (n : U8)
  deriving DecidableEq

namespace TcpOptNumber

/-- `src/tcp/option.rs:174-189`, `From<u8> for Number`. -/
def ofWire (v : U8) : TcpOptNumber :=
  if v = 0#8 then .end else
  if v = 1#8 then .noOperation else
  if v = 2#8 then .maximumSegmentSize else
  if v = 3#8 then .windowScale else
  if v = 4#8 then .selectiveAcknowledgmentPermitted else
  if v = 5#8 then .selectiveAcknowledgment else
  if v = 8#8 then .timestamp else
  .unknown v

/-- `src/tcp/option.rs:191-206`, `Into<u8> for Number`. -/
def toWire : TcpOptNumber → U8
  | .end => 0#8
  | .noOperation => 1#8
  | .maximumSegmentSize => 2#8
  | .windowScale => 3#8
  | .selectiveAcknowledgmentPermitted => 4#8
  | .selectiveAcknowledgment => 5#8
  | .timestamp => 8#8
  | .unknown n => n


end TcpOptNumber

/-- `src/ip/v4/option.rs:59-134`, `enum Number`. -/
inductive V4OptNumber where
  | end
  | noOperation
  | security
  | looseSourceRoute
  | timeStamp
  | extendedSecurity
  | commercialSecurity
  | recordRoute
  | streamId
  | strictSourceRoute
  | experimentalMeasurement
  | mtuProbe
  | mtuReply
  | experimentalFlowControl
  | experimentalAccessControl
  | imiTrafficDescriptor
  | extendedInternetProtocol
  | traceRoute
  | addressExtension
  | routerAlert
  | selectiveDirectedBroadcast
  | dynamicPacketState
  | upstreamMulticastPacket
  | quickStart
  | unknown (n : U8)
  deriving DecidableEq

namespace V4OptNumber

/-- `src/ip/v4/option.rs:280-312`, `From<u8> for Number`. -/
def ofWire (v : U8) : V4OptNumber :=
  if v = 0#8 then .end else
  if v = 1#8 then .noOperation else
  if v = 2#8 then .security else
  if v = 3#8 then .looseSourceRoute else
  if v = 4#8 then .timeStamp else
  if v = 5#8 then .extendedSecurity else
  if v = 6#8 then .commercialSecurity else
  if v = 7#8 then .recordRoute else
  if v = 8#8 then .streamId else
  if v = 9#8 then .strictSourceRoute else
  if v = 10#8 then .experimentalMeasurement else
  if v = 11#8 then .mtuProbe else
  if v = 12#8 then .mtuReply else
  if v = 13#8 then .experimentalFlowControl else
  if v = 14#8 then .experimentalAccessControl else
  if v = 16#8 then .imiTrafficDescriptor else
  if v = 17#8 then .extendedInternetProtocol else
  if v = 18#8 then .traceRoute else
  if v = 19#8 then .addressExtension else
  if v = 20#8 then .routerAlert else
  if v = 21#8 then .selectiveDirectedBroadcast else
  if v = 23#8 then .dynamicPacketState else
  if v = 24#8 then .upstreamMulticastPacket else
  if v = 25#8 then .quickStart else
  .unknown v

/-- `src/ip/v4/option.rs:314-346`, `Into<u8> for Number`. -/
def toWire : V4OptNumber → U8
  | .end => 0#8
  | .noOperation => 1#8
  | .security => 2#8
  | .looseSourceRoute => 3#8
  | .timeStamp => 4#8
  | .extendedSecurity => 5#8
  | .commercialSecurity => 6#8
  | .recordRoute => 7#8
  | .streamId => 8#8
  | .strictSourceRoute => 9#8
  | .experimentalMeasurement => 10#8
  | .mtuProbe => 11#8
  | .mtuReply => 12#8
  | .experimentalFlowControl => 13#8
  | .experimentalAccessControl => 14#8
  | .imiTrafficDescriptor => 16#8
  | .extendedInternetProtocol => 17#8
  | .traceRoute => 18#8
  | .addressExtension => 19#8
  | .routerAlert => 20#8
  | .selectiveDirectedBroadcast => 21#8
  | .dynamicPacketState => 23#8
  | .upstreamMulticastPacket => 24#8
  | .quickStart => 25#8
  | .unknown n => n


end V4OptNumber

/-- `src/ip/v4/option.rs:46-55`, `enum Class`. -/
inductive V4OptClass where
  | control
  | debugging
  | reserved (n : U8)
  deriving DecidableEq

namespace V4OptClass

/-- `src/ip/v4/option.rs:256-268`, `From<u8> for Class`. -/
def ofWire (v : U8) : Outcome V4OptClass :=
  if v = 0#8 then .ok (V4OptClass.control) else
  if v = 1#8 then .ok (V4OptClass.reserved 1#8) else
  if v = 2#8 then .ok (V4OptClass.debugging) else
  if v = 3#8 then .ok (V4OptClass.reserved 3#8) else
  .panic

/-- `src/ip/v4/option.rs:270-278`, `Into<u8> for Class`. -/
def toWire : V4OptClass → U8
  | .control => 0#8
  | .debugging => 2#8
  | .reserved n => n


end V4OptClass

end Verif

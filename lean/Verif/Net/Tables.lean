/-!
# The tables of protocols: src/xlat/*_protocols.in and src/xlat/addrfams.in, generated from these files (the numbers of netlink
protocols from bundled/linux/include/uapi/linux/netlink.h:9-31)
-/
namespace Strace.Net

/-- src/xlat/inet_protocols.in:1-37 -/
def inet : List (Nat × String) :=
  [(0, "IPPROTO_IP"), (1, "IPPROTO_ICMP"), (2, "IPPROTO_IGMP"), (4, "IPPROTO_IPIP"), (6, "IPPROTO_TCP"), (8, "IPPROTO_EGP"),
   (12, "IPPROTO_PUP"), (17, "IPPROTO_UDP"), (22, "IPPROTO_IDP"), (29, "IPPROTO_TP"), (33, "IPPROTO_DCCP"),
   (41, "IPPROTO_IPV6"), (43, "IPPROTO_ROUTING"), (44, "IPPROTO_FRAGMENT"), (46, "IPPROTO_RSVP"), (47, "IPPROTO_GRE"),
   (50, "IPPROTO_ESP"), (51, "IPPROTO_AH"), (58, "IPPROTO_ICMPV6"), (59, "IPPROTO_NONE"), (60, "IPPROTO_DSTOPTS"),
   (92, "IPPROTO_MTP"), (94, "IPPROTO_BEETPH"), (98, "IPPROTO_ENCAP"), (103, "IPPROTO_PIM"), (108, "IPPROTO_COMP"),
   (115, "IPPROTO_L2TP"), (132, "IPPROTO_SCTP"), (135, "IPPROTO_MH"), (136, "IPPROTO_UDPLITE"), (137, "IPPROTO_MPLS"),
   (143, "IPPROTO_ETHERNET"), (144, "IPPROTO_AGGFRAG"), (255, "IPPROTO_RAW"), (256, "IPPROTO_SMC"), (262, "IPPROTO_MPTCP")]

/-- src/xlat/ax25_protocols.in:1-17 -/
def ax25 : List (Nat × String) :=
  [(1, "AX25_P_ROSE"), (6, "AX25_P_VJCOMP"), (7, "AX25_P_VJUNCOMP"), (8, "AX25_P_SEGMENT"), (195, "AX25_P_TEXNET"),
   (196, "AX25_P_LQ"), (202, "AX25_P_ATALK"), (203, "AX25_P_ATALK_ARP"), (204, "AX25_P_IP"), (205, "AX25_P_ARP"),
   (206, "AX25_P_FLEXNET"), (207, "AX25_P_NETROM"), (240, "AX25_P_TEXT")]

/-- src/xlat/netlink_protocols.in:1-24 -/
def netlink : List (Nat × String) :=
  [(0, "NETLINK_ROUTE"), (1, "NETLINK_UNUSED"), (2, "NETLINK_USERSOCK"), (3, "NETLINK_FIREWALL"), (4, "NETLINK_SOCK_DIAG"),
   (5, "NETLINK_NFLOG"), (6, "NETLINK_XFRM"), (7, "NETLINK_SELINUX"), (8, "NETLINK_ISCSI"), (9, "NETLINK_AUDIT"),
   (10, "NETLINK_FIB_LOOKUP"), (11, "NETLINK_CONNECTOR"), (12, "NETLINK_NETFILTER"), (13, "NETLINK_IP6_FW"),
   (14, "NETLINK_DNRTMSG"), (15, "NETLINK_KOBJECT_UEVENT"), (16, "NETLINK_GENERIC"), (18, "NETLINK_SCSITRANSPORT"),
   (19, "NETLINK_ECRYPTFS"), (20, "NETLINK_RDMA"), (21, "NETLINK_CRYPTO"), (22, "NETLINK_SMC")]

/-- src/xlat/ethernet_protocols.in:1-100 -/
def ethernet : List (Nat × String) :=
  [(1, "ETH_P_802_3"), (2, "ETH_P_AX25"), (3, "ETH_P_ALL"), (4, "ETH_P_802_2"), (5, "ETH_P_SNAP"), (6, "ETH_P_DDCMP"),
   (7, "ETH_P_WAN_PPP"), (8, "ETH_P_PPP_MP"), (9, "ETH_P_LOCALTALK"), (12, "ETH_P_CAN"), (13, "ETH_P_CANFD"),
   (14, "ETH_P_CANXL"), (16, "ETH_P_PPPTALK"), (17, "ETH_P_TR_802_2"), (21, "ETH_P_MOBITEX"), (22, "ETH_P_CONTROL"),
   (23, "ETH_P_IRDA"), (24, "ETH_P_ECONET"), (25, "ETH_P_HDLC"), (26, "ETH_P_ARCNET"), (27, "ETH_P_DSA"),
   (28, "ETH_P_TRAILER"), (96, "ETH_P_LOOP"), (245, "ETH_P_PHONET"), (246, "ETH_P_IEEE802154"), (247, "ETH_P_CAIF"),
   (248, "ETH_P_XDSA"), (249, "ETH_P_MAP"), (250, "ETH_P_MCTP"), (512, "ETH_P_PUP"), (513, "ETH_P_PUPAT"),
   (1536, "ETH_P_802_3_MIN"), (2048, "ETH_P_IP"), (2053, "ETH_P_X25"), (2054, "ETH_P_ARP"), (2303, "ETH_P_BPQ"),
   (2560, "ETH_P_IEEEPUP"), (2561, "ETH_P_IEEEPUPAT"), (8939, "ETH_P_ERSPAN2"), (8944, "ETH_P_TSN"),
   (17157, "ETH_P_BATMAN"), (24576, "ETH_P_DEC"), (24577, "ETH_P_DNA_DL"), (24578, "ETH_P_DNA_RC"), (24579, "ETH_P_DNA_RT"),
   (24580, "ETH_P_LAT"), (24581, "ETH_P_DIAG"), (24582, "ETH_P_CUST"), (24583, "ETH_P_SCA"), (25944, "ETH_P_TEB"),
   (32821, "ETH_P_RARP"), (32923, "ETH_P_ATALK"), (33011, "ETH_P_AARP"), (33024, "ETH_P_8021Q"), (33079, "ETH_P_IPX"),
   (34525, "ETH_P_IPV6"), (34824, "ETH_P_PAUSE"), (34825, "ETH_P_SLOW"), (34878, "ETH_P_WCCP"), (34887, "ETH_P_MPLS_UC"),
   (34888, "ETH_P_MPLS_MC"), (34892, "ETH_P_ATMMPOA"), (34915, "ETH_P_PPP_DISC"), (34916, "ETH_P_PPP_SES"),
   (34924, "ETH_P_LINK_CTL"), (34948, "ETH_P_ATMFATE"), (34958, "ETH_P_PAE"), (34969, "ETH_P_REALTEK"),
   (34978, "ETH_P_AOE"), (34984, "ETH_P_8021AD"), (34997, "ETH_P_802_EX1"), (35006, "ETH_P_ERSPAN"),
   (35015, "ETH_P_PREAUTH"), (35018, "ETH_P_TIPC"), (35020, "ETH_P_LLDP"), (35043, "ETH_P_MRP"), (35045, "ETH_P_MACSEC"),
   (35047, "ETH_P_8021AH"), (35061, "ETH_P_MVRP"), (35063, "ETH_P_1588"), (35064, "ETH_P_NCSI"), (35067, "ETH_P_PRP"),
   (35074, "ETH_P_CFM"), (35078, "ETH_P_FCOE"), (35085, "ETH_P_TDLS"), (35092, "ETH_P_FIP"), (35093, "ETH_P_IBOE"),
   (35095, "ETH_P_80221"), (35119, "ETH_P_HSR"), (35151, "ETH_P_NSH"), (36864, "ETH_P_LOOPBACK"), (37120, "ETH_P_QINQ1"),
   (37376, "ETH_P_QINQ2"), (37632, "ETH_P_QINQ3"), (56026, "ETH_P_EDSA"), (56027, "ETH_P_DSA_8021Q"),
   (57345, "ETH_P_DSA_A5PSW"), (60734, "ETH_P_IFE"), (64507, "ETH_P_AF_IUCV")]

/-- src/xlat/irda_protocols.in:1-3 -/
def irda : List (Nat × String) :=
  [(0, "IRDAPROTO_UNITDATA"), (1, "IRDAPROTO_ULTRA")]

/-- src/xlat/can_protocols.in:1-8 -/
def can : List (Nat × String) :=
  [(1, "CAN_RAW"), (2, "CAN_BCM"), (3, "CAN_TP16"), (4, "CAN_TP20"), (5, "CAN_MCNET"), (6, "CAN_ISOTP"), (7, "CAN_J1939")]

/-- src/xlat/bt_protocols.in:1-9 -/
def bt : List (Nat × String) :=
  [(0, "BTPROTO_L2CAP"), (1, "BTPROTO_HCI"), (2, "BTPROTO_SCO"), (3, "BTPROTO_RFCOMM"), (4, "BTPROTO_BNEP"),
   (5, "BTPROTO_CMTP"), (6, "BTPROTO_HIDP"), (7, "BTPROTO_AVDTP")]

/-- src/xlat/isdn_protocols.in:1-19 -/
def isdn : List (Nat × String) :=
  [(0, "ISDN_P_BASE"), (1, "ISDN_P_TE_S0"), (2, "ISDN_P_NT_S0"), (3, "ISDN_P_TE_E1"), (4, "ISDN_P_NT_E1"),
   (16, "ISDN_P_LAPD_TE"), (17, "ISDN_P_LAPD_NT"), (33, "ISDN_P_B_RAW"), (34, "ISDN_P_B_HDLC"), (35, "ISDN_P_B_X75SLP"),
   (36, "ISDN_P_B_L2DTMF"), (37, "ISDN_P_B_L2DSP"), (38, "ISDN_P_B_L2DSPHDLC")]

/-- src/xlat/phonet_protocols.in:1-4 -/
def phonet : List (Nat × String) :=
  [(0, "PN_PROTO_TRANSPORT"), (1, "PN_PROTO_PHONET"), (2, "PN_PROTO_PIPE")]

/-- src/xlat/caif_protocols.in:1-7 -/
def caif : List (Nat × String) :=
  [(0, "CAIFPROTO_AT"), (1, "CAIFPROTO_DATAGRAM"), (2, "CAIFPROTO_DATAGRAM_LOOP"), (3, "CAIFPROTO_UTIL"),
   (4, "CAIFPROTO_RFM"), (5, "CAIFPROTO_DEBUG")]

/-- src/xlat/nfc_protocols.in:1-3 -/
def nfc : List (Nat × String) :=
  [(0, "NFC_SOCKPROTO_RAW"), (1, "NFC_SOCKPROTO_LLCP")]

/-- src/xlat/kcm_protocols.in:1-2 -/
def kcm : List (Nat × String) :=
  [(0, "KCMPROTO_CONNECTED")]

/-- src/xlat/smc_protocols.in:1-3 -/
def smc : List (Nat × String) :=
  [(0, "SMCPROTO_SMC"), (1, "SMCPROTO_SMC6")]

/-- src/xlat/addrfams.in:1-47 -/
def addrfams : List (Nat × String) :=
  [(0, "AF_UNSPEC"), (1, "AF_UNIX"), (2, "AF_INET"), (3, "AF_AX25"), (4, "AF_IPX"), (5, "AF_APPLETALK"), (6, "AF_NETROM"),
   (7, "AF_BRIDGE"), (8, "AF_ATMPVC"), (9, "AF_X25"), (10, "AF_INET6"), (11, "AF_ROSE"), (12, "AF_DECnet"),
   (13, "AF_NETBEUI"), (14, "AF_SECURITY"), (15, "AF_KEY"), (16, "AF_NETLINK"), (17, "AF_PACKET"), (18, "AF_ASH"),
   (19, "AF_ECONET"), (20, "AF_ATMSVC"), (21, "AF_RDS"), (22, "AF_SNA"), (23, "AF_IRDA"), (24, "AF_PPPOX"),
   (25, "AF_WANPIPE"), (26, "AF_LLC"), (27, "AF_IB"), (28, "AF_MPLS"), (29, "AF_CAN"), (30, "AF_TIPC"),
   (31, "AF_BLUETOOTH"), (32, "AF_IUCV"), (33, "AF_RXRPC"), (34, "AF_ISDN"), (35, "AF_PHONET"), (36, "AF_IEEE802154"),
   (37, "AF_CAIF"), (38, "AF_ALG"), (39, "AF_NFC"), (40, "AF_VSOCK"), (41, "AF_KCM"), (42, "AF_QIPCRTR"), (43, "AF_SMC"),
   (44, "AF_XDP"), (45, "AF_MCTP")]

end Strace.Net

import Verif.Model.Enum

/-!
# The enumerations of the packages ofp4 and ofp5

Every `type(..., (_enum_base,), {...})(globals())` in the order of the source, with the text of the source.
-/

namespace Twink.Enum

/-- One enumeration. -/
def en (pre : List Char) (numbers : Src Nat) (bitshifts : Src Int) : Enum := ⟨pre, numbers, bitshifts⟩

/-- twink/ofp4/__init__.py L82-544 (`OFP_NO_BUFFER`, L80, is a plain assignment). -/
def ofp4Enums : List Enum := [
  -- ofp_flow_mod_command L83-86
  en (txt! "OFPFC") (.str (txt! "ADD MODIFY MODIFY_STRICT DELETE DELETE_STRICT")) .none,
  -- ofp_group_mod_command L88-91
  en (txt! "OFPGC") (.str (txt! "ADD MODIFY DELETE")) .none,
  -- ofp_meter_mod_command L93-96
  en (txt! "OFPMC") (.str (txt! "ADD MODIFY DELETE")) .none,
  -- ofp_type L98-110
  en (txt! "OFPT") (.str (txt! "HELLO ERROR ECHO_REQUEST ECHO_REPLY EXPERIMENTER\n\
      \t\tFEATURES_REQUEST FEATURES_REPLY GET_CONFIG_REQUEST GET_CONFIG_REPLY SET_CONFIG\n\
      \t\tPACKET_IN FLOW_REMOVED PORT_STATUS\n\
      \t\tPACKET_OUT FLOW_MOD GROUP_MOD PORT_MOD TABLE_MOD\n\
      \t\tMULTIPART_REQUEST MULTIPART_REPLY\n\
      \t\tBARRIER_REQUEST BARRIER_REPLY\n\
      \t\tQUEUE_GET_CONFIG_REQUEST QUEUE_GET_CONFIG_REPLY\n\
      \t\tROLE_REQUEST ROLE_REPLY\n\
      \t\tGET_ASYNC_REQUEST GET_ASYNC_REPLY SET_ASYNC\n\
      \t\tMETER_MOD")) .none,
  -- ofp_port_config L112-116
  en (txt! "OFPPC") .none (.str (txt! "PORT_DOWN NO_STP NO_RECV NO_RECV_STP NO_FLOOD NO_FWD NO_PACKET_IN")),
  -- ofp_port_state L118-121
  en (txt! "OFPPS") .none (.str (txt! "LINK_DOWN BLOCKED LIVE")),
  -- ofp_port_no L123-135
  en (txt! "OFPP") (.dict [(txt! "MAX", 0xffffff00), (txt! "IN_PORT", 0xfffffff8), (txt! "TABLE", 0xfffffff9), (txt! "NORMAL", 0xfffffffa), (txt! "FLOOD", 0xfffffffb), (txt! "ALL", 0xfffffffc), (txt! "CONTROLLER", 0xfffffffd), (txt! "LOCAL", 0xfffffffe), (txt! "ANY", 0xffffffff)]) .none,
  -- ofp_port_features L137-142
  en (txt! "OFPPF") .none (.str (txt! "10MB_HD 10MB_FD 100MB_HD 100MB_FD 1GB_HD 1GB_FD\n\
      \t\t10GB_FD 40GB_FD 100GB_FD 1TB_FD OTHER\n\
      \t\tCOPPER FIBER AUTONEG PAUSE PAUSE_ANY")),
  -- ofp_queue_properties L144-150
  en (txt! "OFPQT") (.dict [(txt! "MIN_RATE", 1), (txt! "MAX_RATE", 2), (txt! "EXPERIMENTER", 0xffff)]) .none,
  -- ofp_match_type L152-155
  en (txt! "OFPMT") (.str (txt! "STANDARD OXM")) .none,
  -- ofp_oxm_class L157-164
  en (txt! "OFPXMC") (.dict [(txt! "NXM_0", 0x0000), (txt! "NXM_1", 0x0001), (txt! "OPENFLOW_BASIC", 0x8000), (txt! "EXPERIMENTER", 0xffff)]) .none,
  -- ofp_match_fields L166-179
  en (txt! "OFPXMT_OFB") (.str (txt! "IN_PORT IN_PHY_PORT METADATA\n\
      \t\tETH_DST ETH_SRC ETH_TYPE VLAN_VID VLAN_PCP\n\
      \t\tIP_DSCP IP_ECN IP_PROTO IPV4_SRC IPV4_DST\n\
      \t\tTCP_SRC TCP_DST UDP_SRC UDP_DST SCTP_SRC SCTP_DST\n\
      \t\tICMPV4_TYPE ICMPV4_CODE\n\
      \t\tARP_OP ARP_SPA ARP_TPA ARP_SHA ARP_THA\n\
      \t\tIPV6_SRC IPV6_DST IPV6_FLABEL\n\
      \t\tICMPV6_TYPE ICMPV6_CODE\n\
      \t\tIPV6_ND_TARGET IPV6_ND_SLL IPV6_ND_TLL\n\
      \t\tMPLS_LABEL MPLS_TC MPLS_BOS\n\
      \t\tPBB_ISID TUNNEL_ID IPV6_EXTHDR")) .none,
  -- ofp_vlan_id L181-186
  en (txt! "OFPVID") (.dict [(txt! "PRESENT", 0x1000), (txt! "NONE", 0x0000)]) .none,
  -- ofp_ipv6exthdr_flags L188-191
  en (txt! "OFPIEH") .none (.str (txt! "NONEXT ESP AUTH DEST FRAG ROUTER HOP UNREP UNSEQ")),
  -- ofp_instruction_type L193-203
  en (txt! "OFPIT") (.dict [(txt! "GOTO_TABLE\n\
      \t\tWRITE_METADATA\n\
      \t\tWRITE_ACTIONS\n\
      \t\tAPPLY_ACTIONS\n\
      \t\tCLEAR_ACTIONS\n\
      \t\tMETER", 1), (txt! "EXPERIMENTER", 0xffff)]) .none,
  -- ofp_action_type L206-215
  en (txt! "OFPAT") (.dict [(txt! "OUTPUT", 0), (txt! "COPY_TTL_OUT COPY_TTL_IN", 11), (txt! "SET_MPLS_TTL DEC_MPLS_TTL PUSH_VLAN POP_VLAN\n\
      \t\t\tPUSH_MPLS POP_MPLS SET_QUEUE GROUP\n\
      \t\t\tSET_NW_TTL DEC_NW_TTL SET_FIELD PUSH_PBB POP_PBB", 15), (txt! "EXPERIMENTER", 0xffff)]) .none,
  -- ofp_controller_max_len L226-231
  en (txt! "OFPCML") (.dict [(txt! "MAX", 0xffe5), (txt! "NO_BUFFER", 0xffff)]) .none,
  -- ofp_capabilities L233-243
  en (txt! "OFPC") .none (.dict [(txt! "FLOW_STATS\n\
      \t\tTABLE_STATS\n\
      \t\tPORT_STATS\n\
      \t\tGROUP_STATS", 0), (txt! "IP_REASM\n\
      \t\tQUEUE_STATS", 5), (txt! "PORT_BLOCKED", 8)]),
  -- ofp_config_flags L245-248
  en (txt! "OFPC_FRAG") (.str (txt! "NORMAL DROP REASM MASK")) .none,
  -- ofp_table L250-255
  en (txt! "OFPTT") (.dict [(txt! "MAX", 0xfe), (txt! "ALL", 0xff)]) .none,
  -- ofp_table_config L257-261
  en (txt! "OFPTC") (.dict [(txt! "DEPRECATED_MASK", 3)]) .none,
  -- ofp_flow_mod_flags L263-266
  en (txt! "OFPFF") .none (.str (txt! "SEND_FLOW_REM CHECK_OVERLAP RESET_COUNTS NO_PKT_COUNTS BYT_COUNTS")),
  -- ofp_group_mod_command L268-271
  en (txt! "OFPGC") (.str (txt! "ADD MODIFY DELETE")) .none,
  -- ofp_group_type L273-276
  en (txt! "OFPGT") (.str (txt! "ALL SELECT INDIRECT FF")) .none,
  -- ofp_group L278-284
  en (txt! "OFPG") (.dict [(txt! "MAX", 0xffffff00), (txt! "ALL", 0xfffffffc), (txt! "ANY", 0xffffffff)]) .none,
  -- ofp_meter L286-293
  en (txt! "OFPM") (.dict [(txt! "MAX", 0xffff0000), (txt! "SLOWPATH", 0xfffffffd), (txt! "CONTROLLER", 0xfffffffe), (txt! "ALL", 0xffffffff)]) .none,
  -- ofp_meter_mod_command L295-298
  en (txt! "OFPMC") (.str (txt! "ADD MODIFY DELETE")) .none,
  -- ofp_meter_flags L300-303
  en (txt! "OFPMF") .none (.str (txt! "KBPS PKTPS BURST STATS")),
  -- ofp_meter_band_type L305-311
  en (txt! "OFPMBT") (.dict [(txt! "DROP", 1), (txt! "DSCP_REMARK", 2), (txt! "EXPERIMENTER", 0xffff)]) .none,
  -- ofp_multipart_request_flags L313-316
  en (txt! "OFPMPF") (.dict [(txt! "REQ_MORE", 1)]) .none,
  -- ofp_multipart_reply_flags L318-321
  en (txt! "OFPMPF") (.dict [(txt! "REPLY_MORE", 1)]) .none,
  -- ofp_multipart_type L323-331
  en (txt! "OFPMP") (.dict [(txt! "DESC FLOW AGGREGATE TABLE PORT_STATS QUEUE\n\
      \t\tGROUP GROUP_DESC GROUP_FEATURES\n\
      \t\tMETER METER_CONFIG METER_FEATURES\n\
      \t\tTABLE_FEATURES PORT_DESC", 0), (txt! "EXPERIMENTER", 0xffff)]) .none,
  -- ofp_table_feature_prop_type L333-345
  en (txt! "OFPTFPT") (.dict [(txt! "INSTRUCTIONS INSTRUCTIONS_MISS\n\
      \t\tNEXT_TABLES NEXT_TABLES_MISS\n\
      \t\tWRITE_ACTIONS WRITE_ACTIONS_MISS\n\
      \t\tAPPLY_ACTIONS APPLY_ACTIONS_MISS\n\
      \t\tMATCH\n\
      \t\tWILDCARDS\n\
      \t\tWRITE_SETFIELD WRITE_SETFIELD_MISS\n\
      \t\tAPPLY_SETFIELD APPLY_SETFIELD_MISS", 0), (txt! "EXPERIMENTER EXPERIMENTER_MISS", 0xfffe)]) .none,
  -- ofp_group_capabilities L347-350
  en (txt! "OFPGFC") .none (.str (txt! "SELECT_WEIGHT SELECT_LIVENESS CHAINING CHAINING_CHECKS")),
  -- ofp_controller_role L352-355
  en (txt! "OFPCR_ROLE") (.str (txt! "NOCHANGE EQUAL MASTER SLAVE")) .none,
  -- ofp_packet_in_reason L357-360
  en (txt! "OFPR") (.str (txt! "NO_MATCH ACTION INVALID_TTL")) .none,
  -- ofp_flow_removed_reason L362-365
  en (txt! "OFPRR") (.str (txt! "IDLE_TIMEOUT HARD_TIMEOUT DELETE GROUP_DELETE")) .none,
  -- ofp_port_reason L367-370
  en (txt! "OFPPR") (.str (txt! "ADD DELETE MODIFY")) .none,
  -- ofp_error_type L372-380
  en (txt! "OFPET") (.dict [(txt! "HELLO_FAILED BAD_REQUEST BAD_ACTION BAD_INSTRUCTION BAD_MATCH\n\
      \t\tFLOW_MOD_FAILED GROUP_MOD_FAILED PORT_MOD_FAILED\n\
      \t\tTABLE_MOD_FAILED SWITCH_CONFIG_FAILWD ROLE_REQUEST_FAILED \n\
      \t\tMETER_MOD_FAILED TABLE_FEATURES_FAILED", 0), (txt! "EXPERIMENTER", 0xffff)]) .none,
  -- ofp_hello_failed_code L382-385
  en (txt! "OFPHFC") (.str (txt! "INCOMPATIBLE EPERM")) .none,
  -- ofp_bad_request_code L387-392
  en (txt! "OFPBRC") (.str (txt! "BAD_VERSION BAD_TYPE BAD_MULTIPART BAD_EXPERIMENTER\n\
      \t\tBAD_EXP_TYPE EPERM BAD_LEN BUFFER_EMPTY BUFFER_UNKNOWN BAD_TABLE_ID\n\
      \t\tIS_SLAVE BAD_PORT BAD_PACKET MULTIPART_BUFFER_OVERFLOW")) .none,
  -- ofp_bad_action_code L394-400
  en (txt! "OFPBAC") (.str (txt! "BAD_TYPE BAD_LEN BAD_EXPERIMENTER BAD_EXP_TYPE BAD_OUT_PORT\n\
      \t\tBAD_ARGUMENT EPERM TOO_MANY BAD_QUEUE BAD_OUT_GROUP\n\
      \t\tMATCH_INCONSISTENT UNSUPPORTED_ORDER BAD_TAG\n\
      \t\tBAD_SET_TYPE BAD_SET_LEN BAD_SET_ARGUMENT")) .none,
  -- ofp_bad_instruction_code L402-407
  en (txt! "OFPBIC") (.str (txt! "UNKNOWN_INST UNSUP_INST BAD_TABLE_ID\n\
      \t\tUNSUP_METADATA UNSUP_METADATA_MASK\n\
      \t\tBAD_EXPERIMENTER BAD_EXP_TYPE BAD_LEN EPERM")) .none,
  -- ofp_bad_match_code L409-415
  en (txt! "OFPBMC") (.str (txt! "BAD_TYPE BAD_LEN BAD_TAG\n\
      \t\tBAD_DL_ADDR_MASK BAD_NW_ADDR_MASK BAD_WILDCARDS\n\
      \t\tBAD_FIELD BAD_VALUE BAD_MASK BAD_PREREQ\n\
      \t\tDUP_FIELD EPERM")) .none,
  -- ofp_flow_mod_failed_code L417-421
  en (txt! "OFPFMFC") (.str (txt! "UNKNOWN TABLE_FULL BAD_TABLE_ID OVERLAP EPERM\n\
      \t\tBAD_TIMEOUT BAD_COMMAND BAD_FLAGS")) .none,
  -- ofp_group_mod_failed_code L423-429
  en (txt! "OFPGMFC") (.str (txt! "GROUP_EXISTS INVALID_GROUP WEIGHT_UNSUPPORTED\n\
      \t\tOUT_OF_GROUPS OUT_OF_BUCKETS CHAINING_UNSUPPORTED\n\
      \t\tWATCH_UNSUPPORTED LOOP UNKNOWN_GROUP CHAINED_GROUP\n\
      \t\tBAD_TYPE BAD_COMMAND BAD_BUCKET BAD_WATCH EPERM")) .none,
  -- ofp_table_mod_failed_code L431-434
  en (txt! "OFPTMFC") (.str (txt! "BAD_TABLE BAD_CONFIG EPERM")) .none,
  -- ofp_queue_op_failed_code L436-439
  en (txt! "OFPQOFC") (.str (txt! "BAD_PORT BAD_QUEUE EPERM")) .none,
  -- ofp_switch_config_failed_code L441-444
  en (txt! "OFPSCFC") (.str (txt! "BAD_FLAGS BAD_LEN EPERM")) .none,
  -- ofp_role_request_failed_code L446-449
  en (txt! "OFPRRFC") (.str (txt! "STALE UNSUP BAD_ROLE")) .none,
  -- ofp_meter_mod_failed_code L451-456
  en (txt! "OFPMMFC") (.str (txt! "UNKNOWN METER_EXISTS INVALID_METER UNKNOWN_METER\n\
      \t\tBAD_COMMAND BAD_FLAGS BAD_RATE BAD_BURST BAD_BAND BAD_BAND_VALUE\n\
      \t\tOUT_OF_METERS OUT_OF_BANDS")) .none,
  -- ofp_table_features_failed_code L458-461
  en (txt! "OFPTFFC") (.str (txt! "BAD_TABLE BAD_METADATA BAD_TYPE BAD_LEN BAD_ARGUMENT EPERM")) .none,
  -- ofp_hello_enum_type L463-466
  en (txt! "OFPHET") (.dict [(txt! "VERSIONBITMAP", 1)]) .none,
  -- ofp_flow_wildcards L468-487
  en (txt! "OFPFW") (.dict [(txt! "IN_PORT", 1 <<< 0), (txt! "DL_VLAN", 1 <<< 1), (txt! "DL_SRC", 1 <<< 2), (txt! "DL_DST", 1 <<< 3), (txt! "DL_TYPE", 1 <<< 4), (txt! "NW_PROTO", 1 <<< 5), (txt! "TP_SRC", 1 <<< 6), (txt! "TP_DST", 1 <<< 7), (txt! "NW_SRC_SHIFT", 8), (txt! "NW_SRC_BITS", 6), (txt! "NW_SRC_MASK", 0x3f <<< 8), (txt! "NW_DST_SHIFT", 14), (txt! "NW_DST_BITS", 6), (txt! "NW_DST_MASK", 0x3f <<< 14), (txt! "NW_DST_ALL", 32 <<< 14), (txt! "ALL", 0xfffff)]) .none,
  -- ofp_flow_expired_readon L489-492
  en (txt! "OFPER") (.str (txt! "IDLE_TIMEOUT HARD_TIMEOUT")) .none]

/-- twink/ofp5/__init__.py L82-639 (`OFP_NO_BUFFER`, L79, is a plain assignment). -/
def ofp5Enums : List Enum := [
  -- ofp_flow_mod_command L83-86
  en (txt! "OFPFC") (.str (txt! "ADD MODIFY MODIFY_STRICT DELETE DELETE_STRICT")) .none,
  -- ofp_group_mod_command L88-91
  en (txt! "OFPGC") (.str (txt! "ADD MODIFY DELETE")) .none,
  -- ofp_meter_mod_command L93-96
  en (txt! "OFPMC") (.str (txt! "ADD MODIFY DELETE")) .none,
  -- ofp_type L98-111
  en (txt! "OFPT") (.dict [(txt! "HELLO ERROR ECHO_REQUEST ECHO_REPLY EXPERIMENTER\n\
      \t\tFEATURES_REQUEST FEATURES_REPLY GET_CONFIG_REQUEST GET_CONFIG_REPLY SET_CONFIG\n\
      \t\tPACKET_IN FLOW_REMOVED PORT_STATUS\n\
      \t\tPACKET_OUT FLOW_MOD GROUP_MOD PORT_MOD TABLE_MOD\n\
      \t\tMULTIPART_REQUEST MULTIPART_REPLY\n\
      \t\tBARRIER_REQUEST BARRIER_REPLY", 0), (txt! "ROLE_REQUEST ROLE_REPLY\n\
      \t\tGET_ASYNC_REQUEST GET_ASYNC_REPLY SET_ASYNC\n\
      \t\tMETER_MOD ROLE_STATUS TABLE_STATUS\n\
      \t\tREQUESTFORWARD BUNDLE_CONTROL BUNDLE_ADD_MESSAGE", 24)]) .none,
  -- ofp_port_config L113-117
  en (txt! "OFPPC") .none (.str (txt! "PORT_DOWN NO_STP NO_RECV NO_RECV_STP NO_FLOOD NO_FWD NO_PACKET_IN")),
  -- ofp_port_state L119-122
  en (txt! "OFPPS") .none (.str (txt! "LINK_DOWN BLOCKED LIVE")),
  -- ofp_port_no L124-136
  en (txt! "OFPP") (.dict [(txt! "MAX", 0xffffff00), (txt! "IN_PORT", 0xfffffff8), (txt! "TABLE", 0xfffffff9), (txt! "NORMAL", 0xfffffffa), (txt! "FLOOD", 0xfffffffb), (txt! "ALL", 0xfffffffc), (txt! "CONTROLLER", 0xfffffffd), (txt! "LOCAL", 0xfffffffe), (txt! "ANY", 0xffffffff)]) .none,
  -- ofp_port_desc_prop_type L139-142
  en (txt! "OFPPDPT") (.dict [(txt! "ETHERNET OPTICAL", 0), (txt! "EXPERIMENTER", 0xffff)]) .none,
  -- ofp_port_features L144-149
  en (txt! "OFPPF") .none (.str (txt! "10MB_HD 10MB_FD 100MB_HD 100MB_FD 1GB_HD 1GB_FD\n\
      \t\t10GB_FD 40GB_FD 100GB_FD 1TB_FD OTHER\n\
      \t\tCOPPER FIBER AUTONEG PAUSE PAUSE_ANY")),
  -- ofp_optiocal_port_features L151-154
  en (txt! "OFPOPF") .none (.str (txt! "RX_TUNE TX_TUNE TX_PWR USE_FREQ")),
  -- ofp_match_type L156-159
  en (txt! "OFPMT") (.str (txt! "STANDARD OXM")) .none,
  -- ofp_oxm_class L161-168
  en (txt! "OFPXMC") (.dict [(txt! "NXM_0", 0x0000), (txt! "NXM_1", 0x0001), (txt! "OPENFLOW_BASIC", 0x8000), (txt! "EXPERIMENTER", 0xffff)]) .none,
  -- ofp_match_fields L170-184
  en (txt! "OFPXMT_OFB") (.dict [(txt! "IN_PORT IN_PHY_PORT METADATA\n\
      \t\tETH_DST ETH_SRC ETH_TYPE VLAN_VID VLAN_PCP\n\
      \t\tIP_DSCP IP_ECN IP_PROTO IPV4_SRC IPV4_DST\n\
      \t\tTCP_SRC TCP_DST UDP_SRC UDP_DST SCTP_SRC SCTP_DST\n\
      \t\tICMPV4_TYPE ICMPV4_CODE\n\
      \t\tARP_OP ARP_SPA ARP_TPA ARP_SHA ARP_THA\n\
      \t\tIPV6_SRC IPV6_DST IPV6_FLABEL\n\
      \t\tICMPV6_TYPE ICMPV6_CODE\n\
      \t\tIPV6_ND_TARGET IPV6_ND_SLL IPV6_ND_TLL\n\
      \t\tMPLS_LABEL MPLS_TC MPLS_BOS\n\
      \t\tPBB_ISID TUNNEL_ID IPV6_EXTHDR", 0), (txt! "PBB_UCA", 41)]) .none,
  -- ofp_vlan_id L186-191
  en (txt! "OFPVID") (.dict [(txt! "PRESENT", 0x1000), (txt! "NONE", 0x0000)]) .none,
  -- ofp_ipv6exthdr_flags L193-196
  en (txt! "OFPIEH") .none (.str (txt! "NONEXT ESP AUTH DEST FRAG ROUTER HOP UNREP UNSEQ")),
  -- ofp_instruction_type L198-208
  en (txt! "OFPIT") (.dict [(txt! "GOTO_TABLE\n\
      \t\tWRITE_METADATA\n\
      \t\tWRITE_ACTIONS\n\
      \t\tAPPLY_ACTIONS\n\
      \t\tCLEAR_ACTIONS\n\
      \t\tMETER", 1), (txt! "EXPERIMENTER", 0xffff)]) .none,
  -- ofp_action_type L211-220
  en (txt! "OFPAT") (.dict [(txt! "OUTPUT", 0), (txt! "COPY_TTL_OUT COPY_TTL_IN", 11), (txt! "SET_MPLS_TTL DEC_MPLS_TTL PUSH_VLAN POP_VLAN\n\
      \t\t\tPUSH_MPLS POP_MPLS SET_QUEUE GROUP\n\
      \t\t\tSET_NW_TTL DEC_NW_TTL SET_FIELD PUSH_PBB POP_PBB", 15), (txt! "EXPERIMENTER", 0xffff)]) .none,
  -- ofp_controller_max_len L231-236
  en (txt! "OFPCML") (.dict [(txt! "MAX", 0xffe5), (txt! "NO_BUFFER", 0xffff)]) .none,
  -- ofp_capabilities L238-248
  en (txt! "OFPC") .none (.dict [(txt! "FLOW_STATS\n\
      \t\tTABLE_STATS\n\
      \t\tPORT_STATS\n\
      \t\tGROUP_STATS", 0), (txt! "IP_REASM\n\
      \t\tQUEUE_STATS", 5), (txt! "PORT_BLOCKED", 8)]),
  -- ofp_config_flags L250-253
  en (txt! "OFPC_FRAG") (.str (txt! "NORMAL DROP REASM MASK")) .none,
  -- ofp_table L255-260
  en (txt! "OFPTT") (.dict [(txt! "MAX", 0xfe), (txt! "ALL", 0xff)]) .none,
  -- ofp_table_config L262-268
  en (txt! "OFPTC") (.dict [(txt! "DEPRECATED_MASK", 3), (txt! "EVICTION", 1 <<< 2), (txt! "VACANCY_EVENTS", 1 <<< 3)]) .none,
  -- ofp_table_mod_prop_type L270-275
  en (txt! "OFPTMPT") (.dict [(txt! "EVICTION VACANCY", 2), (txt! "EXPERIMENTER", 0xffff)]) .none,
  -- ofp_table_mod_prop_eviction_flag L277-280
  en (txt! "OFPTMPEF") .none (.str (txt! "OTHER IMPORTANCE LIFETIME")),
  -- ofp_flow_mod_flags L282-285
  en (txt! "OFPFF") .none (.str (txt! "SEND_FLOW_REM CHECK_OVERLAP RESET_COUNTS NO_PKT_COUNTS BYT_COUNTS")),
  -- ofp_group_mod_command L287-290
  en (txt! "OFPGC") (.str (txt! "ADD MODIFY DELETE")) .none,
  -- ofp_group_type L292-295
  en (txt! "OFPGT") (.str (txt! "ALL SELECT INDIRECT FF")) .none,
  -- ofp_group L297-303
  en (txt! "OFPG") (.dict [(txt! "MAX", 0xffffff00), (txt! "ALL", 0xfffffffc), (txt! "ANY", 0xffffffff)]) .none,
  -- ofp_port_mod_prop_type L306-309
  en (txt! "OFPPMPT") (.dict [(txt! "ETHERNET OPTICAL", 0), (txt! "EXPERIMENTER", 0xffff)]) .none,
  -- ofp_meter L312-319
  en (txt! "OFPM") (.dict [(txt! "MAX", 0xffff0000), (txt! "SLOWPATH", 0xfffffffd), (txt! "CONTROLLER", 0xfffffffe), (txt! "ALL", 0xffffffff)]) .none,
  -- ofp_meter_mod_command L321-324
  en (txt! "OFPMC") (.str (txt! "ADD MODIFY DELETE")) .none,
  -- ofp_meter_flags L326-329
  en (txt! "OFPMF") .none (.str (txt! "KBPS PKTPS BURST STATS")),
  -- ofp_meter_band_type L331-337
  en (txt! "OFPMBT") (.dict [(txt! "DROP", 1), (txt! "DSCP_REMARK", 2), (txt! "EXPERIMENTER", 0xffff)]) .none,
  -- ofp_multipart_request_flags L339-342
  en (txt! "OFPMPF") (.dict [(txt! "REQ_MORE", 1)]) .none,
  -- ofp_multipart_reply_flags L344-347
  en (txt! "OFPMPF") (.dict [(txt! "REPLY_MORE", 1)]) .none,
  -- ofp_multipart_type L349-358
  en (txt! "OFPMP") (.dict [(txt! "DESC FLOW AGGREGATE TABLE PORT_STATS QUEUE_STATS\n\
      \t\tGROUP GROUP_DESC GROUP_FEATURES\n\
      \t\tMETER METER_CONFIG METER_FEATURES\n\
      \t\tTABLE_FEATURES PORT_DESC\n\
      \t\tTABLE_DESC QUEUE_DESC FLOW_MONITOR", 0), (txt! "EXPERIMENTER", 0xffff)]) .none,
  -- ofp_table_feature_prop_type L360-373
  en (txt! "OFPTFPT") (.dict [(txt! "INSTRUCTIONS INSTRUCTIONS_MISS\n\
      \t\tNEXT_TABLES NEXT_TABLES_MISS\n\
      \t\tWRITE_ACTIONS WRITE_ACTIONS_MISS\n\
      \t\tAPPLY_ACTIONS APPLY_ACTIONS_MISS\n\
      \t\tMATCH\n\
      \t\tWILDCARDS\n\
      \t\tWRITE_SETFIELD WRITE_SETFIELD_MISS\n\
      \t\tAPPLY_SETFIELD APPLY_SETFIELD_MISS\n\
      \t\tTABLE_SYNC_FROM", 0), (txt! "EXPERIMENTER EXPERIMENTER_MISS", 0xfffe)]) .none,
  -- ofp_port_stats_prop_type L376-379
  en (txt! "OFPPSPT") (.dict [(txt! "ETHERNET OPTICAL", 0), (txt! "EXPERIMENTER", 0xffff)]) .none,
  -- ofp_port_stats_optical_flags L381-384
  en (txt! "OFPOSF") .none (.str (txt! "RX_TUNE TX_TUNE TX_PWR RX_PWR TX_BIAS TX_TEMP")),
  -- ofp_queue_stats_prop_type L387-390
  en (txt! "OFPQSPT") (.dict [(txt! "EXPERIMENTER", 0xffff)]) .none,
  -- ofp_queue_desc_prop_type L393-396
  en (txt! "OFPQDPT") (.dict [(txt! "MIN_RATE MAX_RATE", 1), (txt! "EXPERIMENTER", 0xffff)]) .none,
  -- ofp_group_capabilities L399-402
  en (txt! "OFPGFC") .none (.str (txt! "SELECT_WEIGHT SELECT_LIVENESS CHAINING CHAINING_CHECKS")),
  -- ofp_flow_monitor_command L405-408
  en (txt! "OFPFMC") (.str (txt! "ADD MODIFY DELETE")) .none,
  -- ofp_flow_monitor_flags L410-413
  en (txt! "OFPFMF") .none (.str (txt! "INITIAL ADD REMOVED MODIFY INSTRUCTIONS NO_ABBREV ONLY_OWN")),
  -- ofp_flow_update_event L416-419
  en (txt! "OFPFME") (.str (txt! "INITIAL ADDED REMOVED MODIFIED ABBREV PAUSED RESUMED")) .none,
  -- ofp_controller_role L421-424
  en (txt! "OFPCR_ROLE") (.str (txt! "NOCHANGE EQUAL MASTER SLAVE")) .none,
  -- ofp_bundle_ctrl_type L427-430
  en (txt! "OFPBCT") (.str (txt! "OPEN_REQUEST OPEN_REPLY CLOSE_REQUEST CLOSE_REPLY DISCARD_REQUEST DISCARD_REPLY")) .none,
  -- ofp_bundle_flags L433-436
  en (txt! "OFPBF") (.dict [(txt! "ATOMIC", 1 <<< 0), (txt! "ORDERED", 1 <<< 1)]) .none,
  -- ofp_bundle_prop_type L439-442
  en (txt! "OFPBPT") (.dict [(txt! "EXPERIMENTER", 0xffff)]) .none,
  -- ofp_async_config_prop_type L444-453
  en (txt! "OFPACPT") (.str (txt! "PACKET_IN_SLAVE PACKET_IN_MASTER\n\
      \t\tPORT_STATUS_SLAVE PORT_STATUS_MASTER\n\
      \t\tFLOW_REMOVED_SLAVE FLOW_REMOVED_MASTER\n\
      \t\tROLE_STATUS_SLAVE ROLE_STATUS_MASTER\n\
      \t\tTABLE_STATUS_SLAVE TABLE_STATUS_MASTER\n\
      \t\tREQUESTFORWARD_SLAVE REQUESTFORWARD_MASTER\n\
      \t\tEXPERIMENTER_SLAVE EXPERIMENTER_MASTER")) .none,
  -- ofp_packet_in_reason L455-458
  en (txt! "OFPR") (.str (txt! "NO_TABLE_MISS APPLY_ACTION INVALID_TTL ACTION_SET GROUP PACKET_OUT")) .none,
  -- ofp_flow_removed_reason L460-463
  en (txt! "OFPRR") (.str (txt! "IDLE_TIMEOUT HARD_TIMEOUT DELETE GROUP_DELETE METER_DELETE EVICTION")) .none,
  -- ofp_port_reason L465-468
  en (txt! "OFPPR") (.str (txt! "ADD DELETE MODIFY")) .none,
  -- ofp_controller_role_reason L471-474
  en (txt! "OFPCRR") (.str (txt! "MASTER_REQUEST CONFIG EXPERIMENTER")) .none,
  -- ofp_role_prop_type L476-479
  en (txt! "OFPRPT") (.dict [(txt! "EXPERIMENTER", 0xffff)]) .none,
  -- ofp_table_reason L482-487
  en (txt! "OFPTR") (.dict [(txt! "VACANCY_DOWN", 3), (txt! "VACANCY_UP", 4)]) .none,
  -- ofp_requestforward_reason L490-493
  en (txt! "OFPRFR") (.str (txt! "GROUP_MOD METER_MOD")) .none,
  -- ofp_error_type L495-504
  en (txt! "OFPET") (.dict [(txt! "HELLO_FAILED BAD_REQUEST BAD_ACTION BAD_INSTRUCTION BAD_MATCH\n\
      \t\tFLOW_MOD_FAILED GROUP_MOD_FAILED PORT_MOD_FAILED\n\
      \t\tTABLE_MOD_FAILED SWITCH_CONFIG_FAILWD ROLE_REQUEST_FAILED \n\
      \t\tMETER_MOD_FAILED TABLE_FEATURES_FAILED\n\
      \t\tASYNC_CONFIG_FAILED FLOW_MONITOR_FAILED BUNDLE_FAILED", 0), (txt! "EXPERIMENTER", 0xffff)]) .none,
  -- ofp_hello_failed_code L506-509
  en (txt! "OFPHFC") (.str (txt! "INCOMPATIBLE EPERM")) .none,
  -- ofp_bad_request_code L511-517
  en (txt! "OFPBRC") (.str (txt! "BAD_VERSION BAD_TYPE BAD_MULTIPART BAD_EXPERIMENTER\n\
      \t\tBAD_EXP_TYPE EPERM BAD_LEN BUFFER_EMPTY BUFFER_UNKNOWN BAD_TABLE_ID\n\
      \t\tIS_SLAVE BAD_PORT BAD_PACKET MULTIPART_BUFFER_OVERFLOW\n\
      \t\tMULTIPART_REQUEST_TIMEOUT MULTIPART_REPLY_TIMEOUT")) .none,
  -- ofp_bad_action_code L519-525
  en (txt! "OFPBAC") (.str (txt! "BAD_TYPE BAD_LEN BAD_EXPERIMENTER BAD_EXP_TYPE BAD_OUT_PORT\n\
      \t\tBAD_ARGUMENT EPERM TOO_MANY BAD_QUEUE BAD_OUT_GROUP\n\
      \t\tMATCH_INCONSISTENT UNSUPPORTED_ORDER BAD_TAG\n\
      \t\tBAD_SET_TYPE BAD_SET_LEN BAD_SET_ARGUMENT")) .none,
  -- ofp_bad_instruction_code L527-532
  en (txt! "OFPBIC") (.str (txt! "UNKNOWN_INST UNSUP_INST BAD_TABLE_ID\n\
      \t\tUNSUP_METADATA UNSUP_METADATA_MASK\n\
      \t\tBAD_EXPERIMENTER BAD_EXP_TYPE BAD_LEN EPERM DUP_INST")) .none,
  -- ofp_bad_match_code L534-540
  en (txt! "OFPBMC") (.str (txt! "BAD_TYPE BAD_LEN BAD_TAG\n\
      \t\tBAD_DL_ADDR_MASK BAD_NW_ADDR_MASK BAD_WILDCARDS\n\
      \t\tBAD_FIELD BAD_VALUE BAD_MASK BAD_PREREQ\n\
      \t\tDUP_FIELD EPERM")) .none,
  -- ofp_flow_mod_failed_code L542-547
  en (txt! "OFPFMFC") (.str (txt! "UNKNOWN TABLE_FULL BAD_TABLE_ID OVERLAP EPERM\n\
      \t\tBAD_TIMEOUT BAD_COMMAND BAD_FLAGS\n\
      \t\tCANT_SYNC BAD_PRIORITY")) .none,
  -- ofp_group_mod_failed_code L549-555
  en (txt! "OFPGMFC") (.str (txt! "GROUP_EXISTS INVALID_GROUP WEIGHT_UNSUPPORTED\n\
      \t\tOUT_OF_GROUPS OUT_OF_BUCKETS CHAINING_UNSUPPORTED\n\
      \t\tWATCH_UNSUPPORTED LOOP UNKNOWN_GROUP CHAINED_GROUP\n\
      \t\tBAD_TYPE BAD_COMMAND BAD_BUCKET BAD_WATCH EPERM")) .none,
  -- ofp_table_mod_failed_code L557-560
  en (txt! "OFPTMFC") (.str (txt! "BAD_TABLE BAD_CONFIG EPERM")) .none,
  -- ofp_queue_op_failed_code L562-565
  en (txt! "OFPQOFC") (.str (txt! "BAD_PORT BAD_QUEUE EPERM")) .none,
  -- ofp_switch_config_failed_code L567-570
  en (txt! "OFPSCFC") (.str (txt! "BAD_FLAGS BAD_LEN EPERM")) .none,
  -- ofp_role_request_failed_code L572-575
  en (txt! "OFPRRFC") (.str (txt! "STALE UNSUP BAD_ROLE")) .none,
  -- ofp_meter_mod_failed_code L577-582
  en (txt! "OFPMMFC") (.str (txt! "UNKNOWN METER_EXISTS INVALID_METER UNKNOWN_METER\n\
      \t\tBAD_COMMAND BAD_FLAGS BAD_RATE BAD_BURST BAD_BAND BAD_BAND_VALUE\n\
      \t\tOUT_OF_METERS OUT_OF_BANDS")) .none,
  -- ofp_table_features_failed_code L584-587
  en (txt! "OFPTFFC") (.dict [(txt! "BAD_TABLE BAD_METADATA", 0), (txt! "EPERM", 5)]) .none,
  -- ofp_bad_property_code L589-592
  en (txt! "OFPBPC") (.str (txt! "BAD_TYPE BAD_LEN BAD_VALUE TOO_MANY DUP_TYPE BAD_EXPERIMENTER BAD_EXP_TYPE BAD_EXP_VALUE EPERM")) .none,
  -- ofp_async_config_failed_code L594-597
  en (txt! "OFPACFC") (.str (txt! "INVALID UNSUPPORTED EPERM")) .none,
  -- ofp_flow_monitor_failed_code L599-602
  en (txt! "OFPMOFC") (.str (txt! "UNKNOWN MONITOR_EXISTS INVALID_MONITOR UNKNOWN_MONITOR BAD_COMMAND BAD_FLAGS BAD_TABLE_ID BAD_OUT")) .none,
  -- ofp_bundle_failed_code L604-608
  en (txt! "OFPBFC") (.str (txt! "UNKNOWN EPERM BAD_ID BUNDLE_EXIST BUNDLE_CLOSED OUT_OF_BUNDLES BAD_TYPE BAD_FLAGS\n\
      \t\tMSG_BAD_LEN MSG_BAD_XID MSG_UNSUP MSG_CONFLICT MSG_TOO_MANY MSG_FAILED TIMEOUT BUNDLE_IN_PROGRESS")) .none,
  -- ofp_hello_enum_type L611-614
  en (txt! "OFPHET") (.dict [(txt! "VERSIONBITMAP", 1)]) .none,
  -- ofp_flow_wildcards L616-635
  en (txt! "OFPFW") (.dict [(txt! "IN_PORT", 1 <<< 0), (txt! "DL_VLAN", 1 <<< 1), (txt! "DL_SRC", 1 <<< 2), (txt! "DL_DST", 1 <<< 3), (txt! "DL_TYPE", 1 <<< 4), (txt! "NW_PROTO", 1 <<< 5), (txt! "TP_SRC", 1 <<< 6), (txt! "TP_DST", 1 <<< 7), (txt! "NW_SRC_SHIFT", 8), (txt! "NW_SRC_BITS", 6), (txt! "NW_SRC_MASK", 0x3f <<< 8), (txt! "NW_DST_SHIFT", 14), (txt! "NW_DST_BITS", 6), (txt! "NW_DST_MASK", 0x3f <<< 14), (txt! "NW_DST_ALL", 32 <<< 14), (txt! "ALL", 0xfffff)]) .none,
  -- ofp_flow_expired_readon L637-640
  en (txt! "OFPER") (.str (txt! "IDLE_TIMEOUT HARD_TIMEOUT")) .none]

/-- twink/ofp4/oxm.py L6-91 -/
def oxm4Enums : List Enum := [
  -- ofp_oxm_class L6-13
  en (txt! "OFPXMC") (.dict [(txt! "NXM_0", 0x0000), (txt! "NXM_1", 0x0001), (txt! "OPENFLOW_BASIC", 0x8000), (txt! "EXPERIMENTER", 0xffff)]) .none,
  -- oxm_ofb_match_fields L15-28
  en (txt! "OXM_OF") (.str (txt! "IN_PORT IN_PHY_PORT METADATA\n\
      \t\tETH_DST ETH_SRC ETH_TYPE VLAN_VID VLAN_PCP\n\
      \t\tIP_DSCP IP_ECN IP_PROTO IPV4_SRC IPV4_DST\n\
      \t\tTCP_SRC TCP_DST UDP_SRC UDP_DST SCTP_SRC SCTP_DST\n\
      \t\tICMPV4_TYPE ICMPV4_CODE\n\
      \t\tARP_OP ARP_SPA ARP_TPA ARP_SHA ARP_THA\n\
      \t\tIPV6_SRC IPV6_DST IPV6_FLABEL\n\
      \t\tICMPV6_TYPE ICMPV6_CODE\n\
      \t\tIPV6_ND_TARGET IPV6_ND_SLL IPV6_ND_TLL\n\
      \t\tMPLS_LABEL MPLS_TC MPLS_BOS\n\
      \t\tPBB_ISID TUNNEL_ID IPV6_EXTHDR")) .none,
  -- ofp_vlan_id L30-33
  en (txt! "OFPVID") .none (.dict [(txt! "PRESENT", 12), (txt! "NONE", -1)]),
  -- ofp_ipv6exthdr_flags L35-38
  en (txt! "OFPIEH") .none (.str (txt! "NONEXT ESP AUTH DEST FRAG ROUTER HOP UNREP UNSEQ")),
  -- nxm_match_fields L40-45
  en (txt! "NXM_NX") (.dict [(txt! "TUN_IPV4_DST", 32)]) .none,
  -- stratos_oxm_fields L50-52
  en (txt! "STRATOS_OXM_FIELD") (.str (txt! "BASIC RADIOTAP")) .none,
  -- stratos_basic_exp L54-68
  en (txt! "STROXM_BASIC") (.str (txt! "UNKNOWN\n\
      \t\tDOT11\n\
      \t\tDOT11_FRAME_CTRL\n\
      \t\tDOT11_ADDR1\n\
      \t\tDOT11_ADDR2\n\
      \t\tDOT11_ADDR3\n\
      \t\tDOT11_ADDR4\n\
      \t\tDOT11_SSID\n\
      \t\tDOT11_ACTION_CATEGORY\n\
      \t\tDOT11_PUBLIC_ACTION\n\
      \t\tDOT11_TAG\n\
      \t\tDOT11_TAG_VENDOR")) .none,
  -- stratos_radiotap_exp L70-91
  en (txt! "STROXM_RADIOTAP") (.dict [(txt! "TSFT\n\
      \t\t\tFLAGS\n\
      \t\t\tRATE\n\
      \t\t\tCHANNEL\n\
      \t\t\tFHSS\n\
      \t\t\tDBM_ANTSIGNAL\n\
      \t\t\tDBM_ANTNOISE\n\
      \t\t\tLOCK_QUALITY\n\
      \t\t\tTX_ATTENUATION\n\
      \t\t\tDB_TX_ATTENUATION\n\
      \t\t\tDBM_TX_POWER\n\
      \t\t\tANTENNA\n\
      \t\t\tDB_ANTSIGNAL\n\
      \t\t\tDB_ANTNOISE\n\
      \t\t\tRX_FLAGS\n\
      \t\t\tTX_FLAGS\n\
      \t\t\tRTS_RETRIES\n\
      \t\t\tDATA_RETRIES\n\
      \t\t", 0), (txt! "MCS AMPDU_STATUS", 19)]) .none]

/-- twink/ofp5/oxm.py L6-38 -/
def oxm5Enums : List Enum := [
  -- ofp_oxm_class L6-13
  en (txt! "OFPXMC") (.dict [(txt! "NXM_0", 0x0000), (txt! "NXM_1", 0x0001), (txt! "OPENFLOW_BASIC", 0x8000), (txt! "EXPERIMENTER", 0xffff)]) .none,
  -- oxm_ofb_match_fields L15-28
  en (txt! "OXM_OF") (.str (txt! "IN_PORT IN_PHY_PORT METADATA\n\
      \t\tETH_DST ETH_SRC ETH_TYPE VLAN_VID VLAN_PCP\n\
      \t\tIP_DSCP IP_ECN IP_PROTO IPV4_SRC IPV4_DST\n\
      \t\tTCP_SRC TCP_DST UDP_SRC UDP_DST SCTP_SRC SCTP_DST\n\
      \t\tICMPV4_TYPE ICMPV4_CODE\n\
      \t\tARP_OP ARP_SPA ARP_TPA ARP_SHA ARP_THA\n\
      \t\tIPV6_SRC IPV6_DST IPV6_FLABEL\n\
      \t\tICMPV6_TYPE ICMPV6_CODE\n\
      \t\tIPV6_ND_TARGET IPV6_ND_SLL IPV6_ND_TLL\n\
      \t\tMPLS_LABEL MPLS_TC MPLS_BOS\n\
      \t\tPBB_ISID TUNNEL_ID IPV6_EXTHDR PBB_UCA")) .none,
  -- ofp_vlan_id L30-33
  en (txt! "OFPVID") .none (.dict [(txt! "PRESENT", 12), (txt! "NONE", -1)]),
  -- ofp_ipv6exthdr_flags L35-38
  en (txt! "OFPIEH") .none (.str (txt! "NONEXT ESP AUTH DEST FRAG ROUTER HOP UNREP UNSEQ"))]

end Twink.Enum

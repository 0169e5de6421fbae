import Verif.Model.Enum

/-!
The constants of the `enum`s in the header files of the standard: `openflow.h` of OpenFlow 1.3 (1.3.2, appendix A.1) and 1.4.0
(appendix A.1), full names and values.
-/

namespace Twink.Enum.Std

/-- In both versions. -/
def common : List (Name × Nat) := [
  -- ofp_port_config
  (txt! "OFPPC_PORT_DOWN", 1), (txt! "OFPPC_NO_RECV", 4), (txt! "OFPPC_NO_FWD", 32), (txt! "OFPPC_NO_PACKET_IN", 64),
  -- ofp_port_state
  (txt! "OFPPS_LINK_DOWN", 1), (txt! "OFPPS_BLOCKED", 2), (txt! "OFPPS_LIVE", 4),
  -- ofp_port_no
  (txt! "OFPP_MAX", 0xffffff00), (txt! "OFPP_IN_PORT", 0xfffffff8), (txt! "OFPP_TABLE", 0xfffffff9),
  (txt! "OFPP_NORMAL", 0xfffffffa), (txt! "OFPP_FLOOD", 0xfffffffb), (txt! "OFPP_ALL", 0xfffffffc),
  (txt! "OFPP_CONTROLLER", 0xfffffffd), (txt! "OFPP_LOCAL", 0xfffffffe), (txt! "OFPP_ANY", 0xffffffff),
  -- ofp_port_features
  (txt! "OFPPF_10MB_HD", 1), (txt! "OFPPF_10MB_FD", 2), (txt! "OFPPF_100MB_HD", 4), (txt! "OFPPF_100MB_FD", 8),
  (txt! "OFPPF_1GB_HD", 16), (txt! "OFPPF_1GB_FD", 32), (txt! "OFPPF_10GB_FD", 64), (txt! "OFPPF_40GB_FD", 128),
  (txt! "OFPPF_100GB_FD", 0x100), (txt! "OFPPF_1TB_FD", 0x200), (txt! "OFPPF_OTHER", 0x400), (txt! "OFPPF_COPPER", 0x800),
  (txt! "OFPPF_FIBER", 0x1000), (txt! "OFPPF_AUTONEG", 0x2000), (txt! "OFPPF_PAUSE", 0x4000),
  (txt! "OFPPF_PAUSE_ASYM", 0x8000),
  -- ofp_match_type
  (txt! "OFPMT_STANDARD", 0), (txt! "OFPMT_OXM", 1),
  -- ofp_oxm_class
  (txt! "OFPXMC_NXM_0", 0), (txt! "OFPXMC_NXM_1", 1), (txt! "OFPXMC_OPENFLOW_BASIC", 0x8000),
  (txt! "OFPXMC_EXPERIMENTER", 0xffff),
  -- ofp_vlan_id
  (txt! "OFPVID_PRESENT", 0x1000), (txt! "OFPVID_NONE", 0),
  -- ofp_ipv6exthdr_flags
  (txt! "OFPIEH_NONEXT", 1), (txt! "OFPIEH_ESP", 2), (txt! "OFPIEH_AUTH", 4), (txt! "OFPIEH_DEST", 8),
  (txt! "OFPIEH_FRAG", 16), (txt! "OFPIEH_ROUTER", 32), (txt! "OFPIEH_HOP", 64), (txt! "OFPIEH_UNREP", 128),
  (txt! "OFPIEH_UNSEQ", 0x100),
  -- ofp_instruction_type
  (txt! "OFPIT_GOTO_TABLE", 1), (txt! "OFPIT_WRITE_METADATA", 2), (txt! "OFPIT_WRITE_ACTIONS", 3),
  (txt! "OFPIT_APPLY_ACTIONS", 4), (txt! "OFPIT_CLEAR_ACTIONS", 5), (txt! "OFPIT_METER", 6),
  (txt! "OFPIT_EXPERIMENTER", 0xffff),
  -- ofp_action_type
  (txt! "OFPAT_OUTPUT", 0), (txt! "OFPAT_COPY_TTL_OUT", 11), (txt! "OFPAT_COPY_TTL_IN", 12),
  (txt! "OFPAT_SET_MPLS_TTL", 15), (txt! "OFPAT_DEC_MPLS_TTL", 16), (txt! "OFPAT_PUSH_VLAN", 17),
  (txt! "OFPAT_POP_VLAN", 18), (txt! "OFPAT_PUSH_MPLS", 19), (txt! "OFPAT_POP_MPLS", 20), (txt! "OFPAT_SET_QUEUE", 21),
  (txt! "OFPAT_GROUP", 22), (txt! "OFPAT_SET_NW_TTL", 23), (txt! "OFPAT_DEC_NW_TTL", 24), (txt! "OFPAT_SET_FIELD", 25),
  (txt! "OFPAT_PUSH_PBB", 26), (txt! "OFPAT_POP_PBB", 27), (txt! "OFPAT_EXPERIMENTER", 0xffff),
  -- ofp_controller_max_len
  (txt! "OFPCML_MAX", 0xffe5), (txt! "OFPCML_NO_BUFFER", 0xffff),
  -- ofp_capabilities
  (txt! "OFPC_FLOW_STATS", 1), (txt! "OFPC_TABLE_STATS", 2), (txt! "OFPC_PORT_STATS", 4), (txt! "OFPC_GROUP_STATS", 8),
  (txt! "OFPC_IP_REASM", 32), (txt! "OFPC_QUEUE_STATS", 64), (txt! "OFPC_PORT_BLOCKED", 0x100),
  -- ofp_config_flags
  (txt! "OFPC_FRAG_NORMAL", 0), (txt! "OFPC_FRAG_DROP", 1), (txt! "OFPC_FRAG_REASM", 2), (txt! "OFPC_FRAG_MASK", 3),
  -- ofp_table
  (txt! "OFPTT_MAX", 254), (txt! "OFPTT_ALL", 255),
  -- ofp_flow_mod_command
  (txt! "OFPFC_ADD", 0), (txt! "OFPFC_MODIFY", 1), (txt! "OFPFC_MODIFY_STRICT", 2), (txt! "OFPFC_DELETE", 3),
  (txt! "OFPFC_DELETE_STRICT", 4),
  -- ofp_flow_mod_flags
  (txt! "OFPFF_SEND_FLOW_REM", 1), (txt! "OFPFF_CHECK_OVERLAP", 2), (txt! "OFPFF_RESET_COUNTS", 4),
  (txt! "OFPFF_NO_PKT_COUNTS", 8), (txt! "OFPFF_NO_BYT_COUNTS", 16),
  -- ofp_group_mod_command
  (txt! "OFPGC_ADD", 0), (txt! "OFPGC_MODIFY", 1), (txt! "OFPGC_DELETE", 2),
  -- ofp_group_type
  (txt! "OFPGT_ALL", 0), (txt! "OFPGT_SELECT", 1), (txt! "OFPGT_INDIRECT", 2), (txt! "OFPGT_FF", 3),
  -- ofp_group
  (txt! "OFPG_MAX", 0xffffff00), (txt! "OFPG_ALL", 0xfffffffc), (txt! "OFPG_ANY", 0xffffffff),
  -- ofp_meter
  (txt! "OFPM_MAX", 0xffff0000), (txt! "OFPM_SLOWPATH", 0xfffffffd), (txt! "OFPM_CONTROLLER", 0xfffffffe),
  (txt! "OFPM_ALL", 0xffffffff),
  -- ofp_meter_mod_command
  (txt! "OFPMC_ADD", 0), (txt! "OFPMC_MODIFY", 1), (txt! "OFPMC_DELETE", 2),
  -- ofp_meter_flags
  (txt! "OFPMF_KBPS", 1), (txt! "OFPMF_PKTPS", 2), (txt! "OFPMF_BURST", 4), (txt! "OFPMF_STATS", 8),
  -- ofp_meter_band_type
  (txt! "OFPMBT_DROP", 1), (txt! "OFPMBT_DSCP_REMARK", 2), (txt! "OFPMBT_EXPERIMENTER", 0xffff),
  -- ofp_multipart_request_flags
  (txt! "OFPMPF_REQ_MORE", 1),
  -- ofp_multipart_reply_flags
  (txt! "OFPMPF_REPLY_MORE", 1),
  -- ofp_group_capabilities
  (txt! "OFPGFC_SELECT_WEIGHT", 1), (txt! "OFPGFC_SELECT_LIVENESS", 2), (txt! "OFPGFC_CHAINING", 4),
  (txt! "OFPGFC_CHAINING_CHECKS", 8),
  -- ofp_controller_role
  (txt! "OFPCR_ROLE_NOCHANGE", 0), (txt! "OFPCR_ROLE_EQUAL", 1), (txt! "OFPCR_ROLE_MASTER", 2), (txt! "OFPCR_ROLE_SLAVE", 3),
  -- ofp_port_reason
  (txt! "OFPPR_ADD", 0), (txt! "OFPPR_DELETE", 1), (txt! "OFPPR_MODIFY", 2),
  -- ofp_hello_failed_code
  (txt! "OFPHFC_INCOMPATIBLE", 0), (txt! "OFPHFC_EPERM", 1),
  -- ofp_bad_action_code
  (txt! "OFPBAC_BAD_TYPE", 0), (txt! "OFPBAC_BAD_LEN", 1), (txt! "OFPBAC_BAD_EXPERIMENTER", 2),
  (txt! "OFPBAC_BAD_EXP_TYPE", 3), (txt! "OFPBAC_BAD_OUT_PORT", 4), (txt! "OFPBAC_BAD_ARGUMENT", 5),
  (txt! "OFPBAC_EPERM", 6), (txt! "OFPBAC_TOO_MANY", 7), (txt! "OFPBAC_BAD_QUEUE", 8), (txt! "OFPBAC_BAD_OUT_GROUP", 9),
  (txt! "OFPBAC_MATCH_INCONSISTENT", 10), (txt! "OFPBAC_UNSUPPORTED_ORDER", 11), (txt! "OFPBAC_BAD_TAG", 12),
  (txt! "OFPBAC_BAD_SET_TYPE", 13), (txt! "OFPBAC_BAD_SET_LEN", 14), (txt! "OFPBAC_BAD_SET_ARGUMENT", 15),
  -- ofp_bad_match_code
  (txt! "OFPBMC_BAD_TYPE", 0), (txt! "OFPBMC_BAD_LEN", 1), (txt! "OFPBMC_BAD_TAG", 2), (txt! "OFPBMC_BAD_DL_ADDR_MASK", 3),
  (txt! "OFPBMC_BAD_NW_ADDR_MASK", 4), (txt! "OFPBMC_BAD_WILDCARDS", 5), (txt! "OFPBMC_BAD_FIELD", 6),
  (txt! "OFPBMC_BAD_VALUE", 7), (txt! "OFPBMC_BAD_MASK", 8), (txt! "OFPBMC_BAD_PREREQ", 9), (txt! "OFPBMC_DUP_FIELD", 10),
  (txt! "OFPBMC_EPERM", 11),
  -- ofp_group_mod_failed_code
  (txt! "OFPGMFC_GROUP_EXISTS", 0), (txt! "OFPGMFC_INVALID_GROUP", 1), (txt! "OFPGMFC_WEIGHT_UNSUPPORTED", 2),
  (txt! "OFPGMFC_OUT_OF_GROUPS", 3), (txt! "OFPGMFC_OUT_OF_BUCKETS", 4), (txt! "OFPGMFC_CHAINING_UNSUPPORTED", 5),
  (txt! "OFPGMFC_WATCH_UNSUPPORTED", 6), (txt! "OFPGMFC_LOOP", 7), (txt! "OFPGMFC_UNKNOWN_GROUP", 8),
  (txt! "OFPGMFC_CHAINED_GROUP", 9), (txt! "OFPGMFC_BAD_TYPE", 10), (txt! "OFPGMFC_BAD_COMMAND", 11),
  (txt! "OFPGMFC_BAD_BUCKET", 12), (txt! "OFPGMFC_BAD_WATCH", 13), (txt! "OFPGMFC_EPERM", 14),
  -- ofp_port_mod_failed_code
  (txt! "OFPPMFC_BAD_PORT", 0), (txt! "OFPPMFC_BAD_HW_ADDR", 1), (txt! "OFPPMFC_BAD_CONFIG", 2),
  (txt! "OFPPMFC_BAD_ADVERTISE", 3), (txt! "OFPPMFC_EPERM", 4),
  -- ofp_table_mod_failed_code
  (txt! "OFPTMFC_BAD_TABLE", 0), (txt! "OFPTMFC_BAD_CONFIG", 1), (txt! "OFPTMFC_EPERM", 2),
  -- ofp_queue_op_failed_code
  (txt! "OFPQOFC_BAD_PORT", 0), (txt! "OFPQOFC_BAD_QUEUE", 1), (txt! "OFPQOFC_EPERM", 2),
  -- ofp_switch_config_failed_code
  (txt! "OFPSCFC_BAD_FLAGS", 0), (txt! "OFPSCFC_BAD_LEN", 1), (txt! "OFPSCFC_EPERM", 2),
  -- ofp_role_request_failed_code
  (txt! "OFPRRFC_STALE", 0), (txt! "OFPRRFC_UNSUP", 1), (txt! "OFPRRFC_BAD_ROLE", 2),
  -- ofp_meter_mod_failed_code
  (txt! "OFPMMFC_UNKNOWN", 0), (txt! "OFPMMFC_METER_EXISTS", 1), (txt! "OFPMMFC_INVALID_METER", 2),
  (txt! "OFPMMFC_UNKNOWN_METER", 3), (txt! "OFPMMFC_BAD_COMMAND", 4), (txt! "OFPMMFC_BAD_FLAGS", 5),
  (txt! "OFPMMFC_BAD_RATE", 6), (txt! "OFPMMFC_BAD_BURST", 7), (txt! "OFPMMFC_BAD_BAND", 8),
  (txt! "OFPMMFC_BAD_BAND_VALUE", 9), (txt! "OFPMMFC_OUT_OF_METERS", 10), (txt! "OFPMMFC_OUT_OF_BANDS", 11),
  -- ofp_hello_elem_type
  (txt! "OFPHET_VERSIONBITMAP", 1)]

/-- OpenFlow 1.3 where it differs from 1.4. -/
def only13 : List (Name × Nat) := [
  -- ofp_type
  (txt! "OFPT_HELLO", 0), (txt! "OFPT_ERROR", 1), (txt! "OFPT_ECHO_REQUEST", 2), (txt! "OFPT_ECHO_REPLY", 3),
  (txt! "OFPT_EXPERIMENTER", 4), (txt! "OFPT_FEATURES_REQUEST", 5), (txt! "OFPT_FEATURES_REPLY", 6),
  (txt! "OFPT_GET_CONFIG_REQUEST", 7), (txt! "OFPT_GET_CONFIG_REPLY", 8), (txt! "OFPT_SET_CONFIG", 9),
  (txt! "OFPT_PACKET_IN", 10), (txt! "OFPT_FLOW_REMOVED", 11), (txt! "OFPT_PORT_STATUS", 12), (txt! "OFPT_PACKET_OUT", 13),
  (txt! "OFPT_FLOW_MOD", 14), (txt! "OFPT_GROUP_MOD", 15), (txt! "OFPT_PORT_MOD", 16), (txt! "OFPT_TABLE_MOD", 17),
  (txt! "OFPT_MULTIPART_REQUEST", 18), (txt! "OFPT_MULTIPART_REPLY", 19), (txt! "OFPT_BARRIER_REQUEST", 20),
  (txt! "OFPT_BARRIER_REPLY", 21), (txt! "OFPT_QUEUE_GET_CONFIG_REQUEST", 22), (txt! "OFPT_QUEUE_GET_CONFIG_REPLY", 23),
  (txt! "OFPT_ROLE_REQUEST", 24), (txt! "OFPT_ROLE_REPLY", 25), (txt! "OFPT_GET_ASYNC_REQUEST", 26),
  (txt! "OFPT_GET_ASYNC_REPLY", 27), (txt! "OFPT_SET_ASYNC", 28), (txt! "OFPT_METER_MOD", 29),
  -- oxm_ofb_match_fields
  (txt! "OFPXMT_OFB_IN_PORT", 0), (txt! "OFPXMT_OFB_IN_PHY_PORT", 1), (txt! "OFPXMT_OFB_METADATA", 2),
  (txt! "OFPXMT_OFB_ETH_DST", 3), (txt! "OFPXMT_OFB_ETH_SRC", 4), (txt! "OFPXMT_OFB_ETH_TYPE", 5),
  (txt! "OFPXMT_OFB_VLAN_VID", 6), (txt! "OFPXMT_OFB_VLAN_PCP", 7), (txt! "OFPXMT_OFB_IP_DSCP", 8),
  (txt! "OFPXMT_OFB_IP_ECN", 9), (txt! "OFPXMT_OFB_IP_PROTO", 10), (txt! "OFPXMT_OFB_IPV4_SRC", 11),
  (txt! "OFPXMT_OFB_IPV4_DST", 12), (txt! "OFPXMT_OFB_TCP_SRC", 13), (txt! "OFPXMT_OFB_TCP_DST", 14),
  (txt! "OFPXMT_OFB_UDP_SRC", 15), (txt! "OFPXMT_OFB_UDP_DST", 16), (txt! "OFPXMT_OFB_SCTP_SRC", 17),
  (txt! "OFPXMT_OFB_SCTP_DST", 18), (txt! "OFPXMT_OFB_ICMPV4_TYPE", 19), (txt! "OFPXMT_OFB_ICMPV4_CODE", 20),
  (txt! "OFPXMT_OFB_ARP_OP", 21), (txt! "OFPXMT_OFB_ARP_SPA", 22), (txt! "OFPXMT_OFB_ARP_TPA", 23),
  (txt! "OFPXMT_OFB_ARP_SHA", 24), (txt! "OFPXMT_OFB_ARP_THA", 25), (txt! "OFPXMT_OFB_IPV6_SRC", 26),
  (txt! "OFPXMT_OFB_IPV6_DST", 27), (txt! "OFPXMT_OFB_IPV6_FLABEL", 28), (txt! "OFPXMT_OFB_ICMPV6_TYPE", 29),
  (txt! "OFPXMT_OFB_ICMPV6_CODE", 30), (txt! "OFPXMT_OFB_IPV6_ND_TARGET", 31), (txt! "OFPXMT_OFB_IPV6_ND_SLL", 32),
  (txt! "OFPXMT_OFB_IPV6_ND_TLL", 33), (txt! "OFPXMT_OFB_MPLS_LABEL", 34), (txt! "OFPXMT_OFB_MPLS_TC", 35),
  (txt! "OFPXMT_OFB_MPLS_BOS", 36), (txt! "OFPXMT_OFB_PBB_ISID", 37), (txt! "OFPXMT_OFB_TUNNEL_ID", 38),
  (txt! "OFPXMT_OFB_IPV6_EXTHDR", 39),
  -- ofp_queue_properties
  (txt! "OFPQT_MIN_RATE", 1), (txt! "OFPQT_MAX_RATE", 2), (txt! "OFPQT_EXPERIMENTER", 0xffff),
  -- ofp_table_config
  (txt! "OFPTC_DEPRECATED_MASK", 3),
  -- ofp_multipart_type
  (txt! "OFPMP_DESC", 0), (txt! "OFPMP_FLOW", 1), (txt! "OFPMP_AGGREGATE", 2), (txt! "OFPMP_TABLE", 3),
  (txt! "OFPMP_PORT_STATS", 4), (txt! "OFPMP_QUEUE", 5), (txt! "OFPMP_GROUP", 6), (txt! "OFPMP_GROUP_DESC", 7),
  (txt! "OFPMP_GROUP_FEATURES", 8), (txt! "OFPMP_METER", 9), (txt! "OFPMP_METER_CONFIG", 10),
  (txt! "OFPMP_METER_FEATURES", 11), (txt! "OFPMP_TABLE_FEATURES", 12), (txt! "OFPMP_PORT_DESC", 13),
  (txt! "OFPMP_EXPERIMENTER", 0xffff),
  -- ofp_table_feature_prop_type
  (txt! "OFPTFPT_INSTRUCTIONS", 0), (txt! "OFPTFPT_INSTRUCTIONS_MISS", 1), (txt! "OFPTFPT_NEXT_TABLES", 2),
  (txt! "OFPTFPT_NEXT_TABLES_MISS", 3), (txt! "OFPTFPT_WRITE_ACTIONS", 4), (txt! "OFPTFPT_WRITE_ACTIONS_MISS", 5),
  (txt! "OFPTFPT_APPLY_ACTIONS", 6), (txt! "OFPTFPT_APPLY_ACTIONS_MISS", 7), (txt! "OFPTFPT_MATCH", 8),
  (txt! "OFPTFPT_WILDCARDS", 10), (txt! "OFPTFPT_WRITE_SETFIELD", 12), (txt! "OFPTFPT_WRITE_SETFIELD_MISS", 13),
  (txt! "OFPTFPT_APPLY_SETFIELD", 14), (txt! "OFPTFPT_APPLY_SETFIELD_MISS", 15), (txt! "OFPTFPT_EXPERIMENTER", 0xfffe),
  (txt! "OFPTFPT_EXPERIMENTER_MISS", 0xffff),
  -- ofp_packet_in_reason
  (txt! "OFPR_NO_MATCH", 0), (txt! "OFPR_ACTION", 1), (txt! "OFPR_INVALID_TTL", 2),
  -- ofp_flow_removed_reason
  (txt! "OFPRR_IDLE_TIMEOUT", 0), (txt! "OFPRR_HARD_TIMEOUT", 1), (txt! "OFPRR_DELETE", 2), (txt! "OFPRR_GROUP_DELETE", 3),
  -- ofp_error_type
  (txt! "OFPET_HELLO_FAILED", 0), (txt! "OFPET_BAD_REQUEST", 1), (txt! "OFPET_BAD_ACTION", 2),
  (txt! "OFPET_BAD_INSTRUCTION", 3), (txt! "OFPET_BAD_MATCH", 4), (txt! "OFPET_FLOW_MOD_FAILED", 5),
  (txt! "OFPET_GROUP_MOD_FAILED", 6), (txt! "OFPET_PORT_MOD_FAILED", 7), (txt! "OFPET_TABLE_MOD_FAILED", 8),
  (txt! "OFPET_QUEUE_OP_FAILED", 9), (txt! "OFPET_SWITCH_CONFIG_FAILED", 10), (txt! "OFPET_ROLE_REQUEST_FAILED", 11),
  (txt! "OFPET_METER_MOD_FAILED", 12), (txt! "OFPET_TABLE_FEATURES_FAILED", 13), (txt! "OFPET_EXPERIMENTER", 0xffff),
  -- ofp_bad_request_code
  (txt! "OFPBRC_BAD_VERSION", 0), (txt! "OFPBRC_BAD_TYPE", 1), (txt! "OFPBRC_BAD_MULTIPART", 2),
  (txt! "OFPBRC_BAD_EXPERIMENTER", 3), (txt! "OFPBRC_BAD_EXP_TYPE", 4), (txt! "OFPBRC_EPERM", 5),
  (txt! "OFPBRC_BAD_LEN", 6), (txt! "OFPBRC_BUFFER_EMPTY", 7), (txt! "OFPBRC_BUFFER_UNKNOWN", 8),
  (txt! "OFPBRC_BAD_TABLE_ID", 9), (txt! "OFPBRC_IS_SLAVE", 10), (txt! "OFPBRC_BAD_PORT", 11),
  (txt! "OFPBRC_BAD_PACKET", 12), (txt! "OFPBRC_MULTIPART_BUFFER_OVERFLOW", 13),
  -- ofp_bad_instruction_code
  (txt! "OFPBIC_UNKNOWN_INST", 0), (txt! "OFPBIC_UNSUP_INST", 1), (txt! "OFPBIC_BAD_TABLE_ID", 2),
  (txt! "OFPBIC_UNSUP_METADATA", 3), (txt! "OFPBIC_UNSUP_METADATA_MASK", 4), (txt! "OFPBIC_BAD_EXPERIMENTER", 5),
  (txt! "OFPBIC_BAD_EXP_TYPE", 6), (txt! "OFPBIC_BAD_LEN", 7), (txt! "OFPBIC_EPERM", 8),
  -- ofp_flow_mod_failed_code
  (txt! "OFPFMFC_UNKNOWN", 0), (txt! "OFPFMFC_TABLE_FULL", 1), (txt! "OFPFMFC_BAD_TABLE_ID", 2),
  (txt! "OFPFMFC_OVERLAP", 3), (txt! "OFPFMFC_EPERM", 4), (txt! "OFPFMFC_BAD_TIMEOUT", 5), (txt! "OFPFMFC_BAD_COMMAND", 6),
  (txt! "OFPFMFC_BAD_FLAGS", 7),
  -- ofp_table_features_failed_code
  (txt! "OFPTFFC_BAD_TABLE", 0), (txt! "OFPTFFC_BAD_METADATA", 1), (txt! "OFPTFFC_BAD_TYPE", 2),
  (txt! "OFPTFFC_BAD_LEN", 3), (txt! "OFPTFFC_BAD_ARGUMENT", 4), (txt! "OFPTFFC_EPERM", 5)]

/-- OpenFlow 1.4 where it differs from 1.3. -/
def only14 : List (Name × Nat) := [
  -- ofp_type
  (txt! "OFPT_HELLO", 0), (txt! "OFPT_ERROR", 1), (txt! "OFPT_ECHO_REQUEST", 2), (txt! "OFPT_ECHO_REPLY", 3),
  (txt! "OFPT_EXPERIMENTER", 4), (txt! "OFPT_FEATURES_REQUEST", 5), (txt! "OFPT_FEATURES_REPLY", 6),
  (txt! "OFPT_GET_CONFIG_REQUEST", 7), (txt! "OFPT_GET_CONFIG_REPLY", 8), (txt! "OFPT_SET_CONFIG", 9),
  (txt! "OFPT_PACKET_IN", 10), (txt! "OFPT_FLOW_REMOVED", 11), (txt! "OFPT_PORT_STATUS", 12), (txt! "OFPT_PACKET_OUT", 13),
  (txt! "OFPT_FLOW_MOD", 14), (txt! "OFPT_GROUP_MOD", 15), (txt! "OFPT_PORT_MOD", 16), (txt! "OFPT_TABLE_MOD", 17),
  (txt! "OFPT_MULTIPART_REQUEST", 18), (txt! "OFPT_MULTIPART_REPLY", 19), (txt! "OFPT_BARRIER_REQUEST", 20),
  (txt! "OFPT_BARRIER_REPLY", 21), (txt! "OFPT_ROLE_REQUEST", 24), (txt! "OFPT_ROLE_REPLY", 25),
  (txt! "OFPT_GET_ASYNC_REQUEST", 26), (txt! "OFPT_GET_ASYNC_REPLY", 27), (txt! "OFPT_SET_ASYNC", 28),
  (txt! "OFPT_METER_MOD", 29), (txt! "OFPT_ROLE_STATUS", 30), (txt! "OFPT_TABLE_STATUS", 31),
  (txt! "OFPT_REQUESTFORWARD", 32), (txt! "OFPT_BUNDLE_CONTROL", 33), (txt! "OFPT_BUNDLE_ADD_MESSAGE", 34),
  -- ofp_port_desc_prop_type
  (txt! "OFPPDPT_ETHERNET", 0), (txt! "OFPPDPT_OPTICAL", 1), (txt! "OFPPDPT_EXPERIMENTER", 0xffff),
  -- ofp_optical_port_features
  (txt! "OFPOPF_RX_TUNE", 1), (txt! "OFPOPF_TX_TUNE", 2), (txt! "OFPOPF_TX_PWR", 4), (txt! "OFPOPF_USE_FREQ", 8),
  -- oxm_ofb_match_fields
  (txt! "OFPXMT_OFB_IN_PORT", 0), (txt! "OFPXMT_OFB_IN_PHY_PORT", 1), (txt! "OFPXMT_OFB_METADATA", 2),
  (txt! "OFPXMT_OFB_ETH_DST", 3), (txt! "OFPXMT_OFB_ETH_SRC", 4), (txt! "OFPXMT_OFB_ETH_TYPE", 5),
  (txt! "OFPXMT_OFB_VLAN_VID", 6), (txt! "OFPXMT_OFB_VLAN_PCP", 7), (txt! "OFPXMT_OFB_IP_DSCP", 8),
  (txt! "OFPXMT_OFB_IP_ECN", 9), (txt! "OFPXMT_OFB_IP_PROTO", 10), (txt! "OFPXMT_OFB_IPV4_SRC", 11),
  (txt! "OFPXMT_OFB_IPV4_DST", 12), (txt! "OFPXMT_OFB_TCP_SRC", 13), (txt! "OFPXMT_OFB_TCP_DST", 14),
  (txt! "OFPXMT_OFB_UDP_SRC", 15), (txt! "OFPXMT_OFB_UDP_DST", 16), (txt! "OFPXMT_OFB_SCTP_SRC", 17),
  (txt! "OFPXMT_OFB_SCTP_DST", 18), (txt! "OFPXMT_OFB_ICMPV4_TYPE", 19), (txt! "OFPXMT_OFB_ICMPV4_CODE", 20),
  (txt! "OFPXMT_OFB_ARP_OP", 21), (txt! "OFPXMT_OFB_ARP_SPA", 22), (txt! "OFPXMT_OFB_ARP_TPA", 23),
  (txt! "OFPXMT_OFB_ARP_SHA", 24), (txt! "OFPXMT_OFB_ARP_THA", 25), (txt! "OFPXMT_OFB_IPV6_SRC", 26),
  (txt! "OFPXMT_OFB_IPV6_DST", 27), (txt! "OFPXMT_OFB_IPV6_FLABEL", 28), (txt! "OFPXMT_OFB_ICMPV6_TYPE", 29),
  (txt! "OFPXMT_OFB_ICMPV6_CODE", 30), (txt! "OFPXMT_OFB_IPV6_ND_TARGET", 31), (txt! "OFPXMT_OFB_IPV6_ND_SLL", 32),
  (txt! "OFPXMT_OFB_IPV6_ND_TLL", 33), (txt! "OFPXMT_OFB_MPLS_LABEL", 34), (txt! "OFPXMT_OFB_MPLS_TC", 35),
  (txt! "OFPXMT_OFB_MPLS_BOS", 36), (txt! "OFPXMT_OFB_PBB_ISID", 37), (txt! "OFPXMT_OFB_TUNNEL_ID", 38),
  (txt! "OFPXMT_OFB_IPV6_EXTHDR", 39), (txt! "OFPXMT_OFB_PBB_UCA", 41),
  -- ofp_table_config
  (txt! "OFPTC_DEPRECATED_MASK", 3), (txt! "OFPTC_EVICTION", 4), (txt! "OFPTC_VACANCY_EVENTS", 8),
  -- ofp_table_mod_prop_type
  (txt! "OFPTMPT_EVICTION", 2), (txt! "OFPTMPT_VACANCY", 3), (txt! "OFPTMPT_EXPERIMENTER", 0xffff),
  -- ofp_table_mod_prop_eviction_flag
  (txt! "OFPTMPEF_OTHER", 1), (txt! "OFPTMPEF_IMPORTANCE", 2), (txt! "OFPTMPEF_LIFETIME", 4),
  -- ofp_port_mod_prop_type
  (txt! "OFPPMPT_ETHERNET", 0), (txt! "OFPPMPT_OPTICAL", 1), (txt! "OFPPMPT_EXPERIMENTER", 0xffff),
  -- ofp_multipart_type
  (txt! "OFPMP_DESC", 0), (txt! "OFPMP_FLOW", 1), (txt! "OFPMP_AGGREGATE", 2), (txt! "OFPMP_TABLE", 3),
  (txt! "OFPMP_PORT_STATS", 4), (txt! "OFPMP_QUEUE_STATS", 5), (txt! "OFPMP_GROUP", 6), (txt! "OFPMP_GROUP_DESC", 7),
  (txt! "OFPMP_GROUP_FEATURES", 8), (txt! "OFPMP_METER", 9), (txt! "OFPMP_METER_CONFIG", 10),
  (txt! "OFPMP_METER_FEATURES", 11), (txt! "OFPMP_TABLE_FEATURES", 12), (txt! "OFPMP_PORT_DESC", 13),
  (txt! "OFPMP_TABLE_DESC", 14), (txt! "OFPMP_QUEUE_DESC", 15), (txt! "OFPMP_FLOW_MONITOR", 16),
  (txt! "OFPMP_EXPERIMENTER", 0xffff),
  -- ofp_table_feature_prop_type
  (txt! "OFPTFPT_INSTRUCTIONS", 0), (txt! "OFPTFPT_INSTRUCTIONS_MISS", 1), (txt! "OFPTFPT_NEXT_TABLES", 2),
  (txt! "OFPTFPT_NEXT_TABLES_MISS", 3), (txt! "OFPTFPT_WRITE_ACTIONS", 4), (txt! "OFPTFPT_WRITE_ACTIONS_MISS", 5),
  (txt! "OFPTFPT_APPLY_ACTIONS", 6), (txt! "OFPTFPT_APPLY_ACTIONS_MISS", 7), (txt! "OFPTFPT_MATCH", 8),
  (txt! "OFPTFPT_WILDCARDS", 10), (txt! "OFPTFPT_WRITE_SETFIELD", 12), (txt! "OFPTFPT_WRITE_SETFIELD_MISS", 13),
  (txt! "OFPTFPT_APPLY_SETFIELD", 14), (txt! "OFPTFPT_APPLY_SETFIELD_MISS", 15), (txt! "OFPTFPT_TABLE_SYNC_FROM", 16),
  (txt! "OFPTFPT_EXPERIMENTER", 0xfffe), (txt! "OFPTFPT_EXPERIMENTER_MISS", 0xffff),
  -- ofp_port_stats_prop_type
  (txt! "OFPPSPT_ETHERNET", 0), (txt! "OFPPSPT_OPTICAL", 1), (txt! "OFPPSPT_EXPERIMENTER", 0xffff),
  -- ofp_port_stats_optical_flags
  (txt! "OFPOSF_RX_TUNE", 1), (txt! "OFPOSF_TX_TUNE", 2), (txt! "OFPOSF_TX_PWR", 4), (txt! "OFPOSF_RX_PWR", 16),
  (txt! "OFPOSF_TX_BIAS", 32), (txt! "OFPOSF_TX_TEMP", 64),
  -- ofp_queue_stats_prop_type
  (txt! "OFPQSPT_EXPERIMENTER", 0xffff),
  -- ofp_queue_desc_prop_type
  (txt! "OFPQDPT_MIN_RATE", 1), (txt! "OFPQDPT_MAX_RATE", 2), (txt! "OFPQDPT_EXPERIMENTER", 0xffff),
  -- ofp_flow_monitor_command
  (txt! "OFPFMC_ADD", 0), (txt! "OFPFMC_MODIFY", 1), (txt! "OFPFMC_DELETE", 2),
  -- ofp_flow_monitor_flags
  (txt! "OFPFMF_INITIAL", 1), (txt! "OFPFMF_ADD", 2), (txt! "OFPFMF_REMOVED", 4), (txt! "OFPFMF_MODIFY", 8),
  (txt! "OFPFMF_INSTRUCTIONS", 16), (txt! "OFPFMF_NO_ABBREV", 32), (txt! "OFPFMF_ONLY_OWN", 64),
  -- ofp_flow_update_event
  (txt! "OFPFME_INITIAL", 0), (txt! "OFPFME_ADDED", 1), (txt! "OFPFME_REMOVED", 2), (txt! "OFPFME_MODIFIED", 3),
  (txt! "OFPFME_ABBREV", 4), (txt! "OFPFME_PAUSED", 5), (txt! "OFPFME_RESUMED", 6),
  -- ofp_bundle_ctrl_type
  (txt! "OFPBCT_OPEN_REQUEST", 0), (txt! "OFPBCT_OPEN_REPLY", 1), (txt! "OFPBCT_CLOSE_REQUEST", 2),
  (txt! "OFPBCT_CLOSE_REPLY", 3), (txt! "OFPBCT_COMMIT_REQUEST", 4), (txt! "OFPBCT_COMMIT_REPLY", 5),
  (txt! "OFPBCT_DISCARD_REQUEST", 6), (txt! "OFPBCT_DISCARD_REPLY", 7),
  -- ofp_bundle_flags
  (txt! "OFPBF_ATOMIC", 1), (txt! "OFPBF_ORDERED", 2),
  -- ofp_bundle_prop_type
  (txt! "OFPBPT_EXPERIMENTER", 0xffff),
  -- ofp_async_config_prop_type
  (txt! "OFPACPT_PACKET_IN_SLAVE", 0), (txt! "OFPACPT_PACKET_IN_MASTER", 1), (txt! "OFPACPT_PORT_STATUS_SLAVE", 2),
  (txt! "OFPACPT_PORT_STATUS_MASTER", 3), (txt! "OFPACPT_FLOW_REMOVED_SLAVE", 4), (txt! "OFPACPT_FLOW_REMOVED_MASTER", 5),
  (txt! "OFPACPT_ROLE_STATUS_SLAVE", 6), (txt! "OFPACPT_ROLE_STATUS_MASTER", 7), (txt! "OFPACPT_TABLE_STATUS_SLAVE", 8),
  (txt! "OFPACPT_TABLE_STATUS_MASTER", 9), (txt! "OFPACPT_REQUESTFORWARD_SLAVE", 10),
  (txt! "OFPACPT_REQUESTFORWARD_MASTER", 11), (txt! "OFPACPT_EXPERIMENTER_SLAVE", 0xfffe),
  (txt! "OFPACPT_EXPERIMENTER_MASTER", 0xffff),
  -- ofp_packet_in_reason
  (txt! "OFPR_TABLE_MISS", 0), (txt! "OFPR_APPLY_ACTION", 1), (txt! "OFPR_INVALID_TTL", 2), (txt! "OFPR_ACTION_SET", 3),
  (txt! "OFPR_GROUP", 4), (txt! "OFPR_PACKET_OUT", 5),
  -- ofp_flow_removed_reason
  (txt! "OFPRR_IDLE_TIMEOUT", 0), (txt! "OFPRR_HARD_TIMEOUT", 1), (txt! "OFPRR_DELETE", 2), (txt! "OFPRR_GROUP_DELETE", 3),
  (txt! "OFPRR_METER_DELETE", 4), (txt! "OFPRR_EVICTION", 5),
  -- ofp_controller_role_reason
  (txt! "OFPCRR_MASTER_REQUEST", 0), (txt! "OFPCRR_CONFIG", 1), (txt! "OFPCRR_EXPERIMENTER", 2),
  -- ofp_role_prop_type
  (txt! "OFPRPT_EXPERIMENTER", 0xffff),
  -- ofp_table_reason
  (txt! "OFPTR_VACANCY_DOWN", 3), (txt! "OFPTR_VACANCY_UP", 4),
  -- ofp_requestforward_reason
  (txt! "OFPRFR_GROUP_MOD", 0), (txt! "OFPRFR_METER_MOD", 1),
  -- ofp_error_type
  (txt! "OFPET_HELLO_FAILED", 0), (txt! "OFPET_BAD_REQUEST", 1), (txt! "OFPET_BAD_ACTION", 2),
  (txt! "OFPET_BAD_INSTRUCTION", 3), (txt! "OFPET_BAD_MATCH", 4), (txt! "OFPET_FLOW_MOD_FAILED", 5),
  (txt! "OFPET_GROUP_MOD_FAILED", 6), (txt! "OFPET_PORT_MOD_FAILED", 7), (txt! "OFPET_TABLE_MOD_FAILED", 8),
  (txt! "OFPET_QUEUE_OP_FAILED", 9), (txt! "OFPET_SWITCH_CONFIG_FAILED", 10), (txt! "OFPET_ROLE_REQUEST_FAILED", 11),
  (txt! "OFPET_METER_MOD_FAILED", 12), (txt! "OFPET_TABLE_FEATURES_FAILED", 13), (txt! "OFPET_BAD_PROPERTY", 14),
  (txt! "OFPET_ASYNC_CONFIG_FAILED", 15), (txt! "OFPET_FLOW_MONITOR_FAILED", 16), (txt! "OFPET_BUNDLE_FAILED", 17),
  (txt! "OFPET_EXPERIMENTER", 0xffff),
  -- ofp_bad_request_code
  (txt! "OFPBRC_BAD_VERSION", 0), (txt! "OFPBRC_BAD_TYPE", 1), (txt! "OFPBRC_BAD_MULTIPART", 2),
  (txt! "OFPBRC_BAD_EXPERIMENTER", 3), (txt! "OFPBRC_BAD_EXP_TYPE", 4), (txt! "OFPBRC_EPERM", 5),
  (txt! "OFPBRC_BAD_LEN", 6), (txt! "OFPBRC_BUFFER_EMPTY", 7), (txt! "OFPBRC_BUFFER_UNKNOWN", 8),
  (txt! "OFPBRC_BAD_TABLE_ID", 9), (txt! "OFPBRC_IS_SLAVE", 10), (txt! "OFPBRC_BAD_PORT", 11),
  (txt! "OFPBRC_BAD_PACKET", 12), (txt! "OFPBRC_MULTIPART_BUFFER_OVERFLOW", 13),
  (txt! "OFPBRC_MULTIPART_REQUEST_TIMEOUT", 14), (txt! "OFPBRC_MULTIPART_REPLY_TIMEOUT", 15),
  -- ofp_bad_instruction_code
  (txt! "OFPBIC_UNKNOWN_INST", 0), (txt! "OFPBIC_UNSUP_INST", 1), (txt! "OFPBIC_BAD_TABLE_ID", 2),
  (txt! "OFPBIC_UNSUP_METADATA", 3), (txt! "OFPBIC_UNSUP_METADATA_MASK", 4), (txt! "OFPBIC_BAD_EXPERIMENTER", 5),
  (txt! "OFPBIC_BAD_EXP_TYPE", 6), (txt! "OFPBIC_BAD_LEN", 7), (txt! "OFPBIC_EPERM", 8), (txt! "OFPBIC_DUP_INST", 9),
  -- ofp_flow_mod_failed_code
  (txt! "OFPFMFC_UNKNOWN", 0), (txt! "OFPFMFC_TABLE_FULL", 1), (txt! "OFPFMFC_BAD_TABLE_ID", 2),
  (txt! "OFPFMFC_OVERLAP", 3), (txt! "OFPFMFC_EPERM", 4), (txt! "OFPFMFC_BAD_TIMEOUT", 5), (txt! "OFPFMFC_BAD_COMMAND", 6),
  (txt! "OFPFMFC_BAD_FLAGS", 7), (txt! "OFPFMFC_CANT_SYNC", 8), (txt! "OFPFMFC_BAD_PRIORITY", 9),
  -- ofp_table_features_failed_code
  (txt! "OFPTFFC_BAD_TABLE", 0), (txt! "OFPTFFC_BAD_METADATA", 1), (txt! "OFPTFFC_EPERM", 5),
  -- ofp_bad_property_code
  (txt! "OFPBPC_BAD_TYPE", 0), (txt! "OFPBPC_BAD_LEN", 1), (txt! "OFPBPC_BAD_VALUE", 2), (txt! "OFPBPC_TOO_MANY", 3),
  (txt! "OFPBPC_DUP_TYPE", 4), (txt! "OFPBPC_BAD_EXPERIMENTER", 5), (txt! "OFPBPC_BAD_EXP_TYPE", 6),
  (txt! "OFPBPC_BAD_EXP_VALUE", 7), (txt! "OFPBPC_EPERM", 8),
  -- ofp_async_config_failed_code
  (txt! "OFPACFC_INVALID", 0), (txt! "OFPACFC_UNSUPPORTED", 1), (txt! "OFPACFC_EPERM", 2),
  -- ofp_flow_monitor_failed_code
  (txt! "OFPMOFC_UNKNOWN", 0), (txt! "OFPMOFC_MONITOR_EXISTS", 1), (txt! "OFPMOFC_INVALID_MONITOR", 2),
  (txt! "OFPMOFC_UNKNOWN_MONITOR", 3), (txt! "OFPMOFC_BAD_COMMAND", 4), (txt! "OFPMOFC_BAD_FLAGS", 5),
  (txt! "OFPMOFC_BAD_TABLE_ID", 6), (txt! "OFPMOFC_BAD_OUT", 7),
  -- ofp_bundle_failed_code
  (txt! "OFPBFC_UNKNOWN", 0), (txt! "OFPBFC_EPERM", 1), (txt! "OFPBFC_BAD_ID", 2), (txt! "OFPBFC_BUNDLE_EXIST", 3),
  (txt! "OFPBFC_BUNDLE_CLOSED", 4), (txt! "OFPBFC_OUT_OF_BUNDLES", 5), (txt! "OFPBFC_BAD_TYPE", 6),
  (txt! "OFPBFC_BAD_FLAGS", 7), (txt! "OFPBFC_MSG_BAD_LEN", 8), (txt! "OFPBFC_MSG_BAD_XID", 9),
  (txt! "OFPBFC_MSG_UNSUP", 10), (txt! "OFPBFC_MSG_CONFLICT", 11), (txt! "OFPBFC_MSG_TOO_MANY", 12),
  (txt! "OFPBFC_MSG_FAILED", 13), (txt! "OFPBFC_TIMEOUT", 14), (txt! "OFPBFC_BUNDLE_IN_PROGRESS", 15)]

/-- The constants of OpenFlow 1.3. -/
def of13 : List (Name × Nat) := common ++ only13

/-- The constants of OpenFlow 1.4. -/
def of14 : List (Name × Nat) := common ++ only14

end Twink.Enum.Std

import Verif.Spec.Of14Calls

/-!
# The OpenFlow 1.4 messages which can be built, parsed, and built again
-/

namespace Twink.Of14
open Of13

/-- Calls with whose messages this is possible: everything given as tuples of the kinds that can be parsed, messages inside of bundles to any
depth.  Not among them: PORT_STATUS, PORT_MOD, TABLE_MOD, TABLE_STATUS, REQUESTFORWARD, bundle messages with properties, multipart messages with
aggregate statistics, statistics of tables, ports and queues, table features, and descriptions of ports, tables and queues, flow monitors;
experimenter replies; METER_MOD unless the header is given with the right length. -/
def Call.Rebuildable (h : HdrArg) : Call → Prop
  | .hello es => es.All HelloElem.Parseable
  | .error .. => True
  | .errorExp .. => True
  | .features .. => True
  | .config .. => True
  | .packetIn _ _ _ _ _ mt _ => ∃ m, mt = .tup m
  | .flowRemoved _ _ _ _ _ _ _ _ _ _ mt => ∃ m, mt = .tup m
  | .packetOut _ _ as _ => as.All Action.Parseable
  | .flowMod _ _ _ _ _ _ _ _ _ _ _ _ mt is => (∃ m, mt = .tup m) ∧ is.All Instr.Parseable
  | .groupMod _ _ _ bs => bs.All Bucket.Parseable
  | .mpRequest t _ body => t ∈ [0, 3, 7, 8, 11, 13] ∨ (t = 14 ∧ body = .raw []) ∨ (t = 0xffff ∧ ∃ d, body = .raw d) ∨
      (∃ r, body = .one r ∧ r.requestType = some t ∧ r.Parseable)
  | .mpRequestOf t _ r => t ∉ [15, 16] ∧ r.requestType = some t ∧ r.Parseable
  | .mpReply t _ body => (t ∈ [0, 8, 11] ∧ ∃ r, body = .one r ∧ r.replyType = some t ∧ r.Parseable) ∨
      (t ∈ [1, 6, 7, 9, 10] ∧ ∃ l : List Rec, body = .many (l.map .tup) ∧ ∀ r ∈ l, r.replyType = some t ∧ r.Parseable)
  | .role .. => True
  | .roleStatus .. => True
  | .async ps => ps.All Pr.ForAsync
  | .meterMod _ _ _ bs => bs.All Band.Parseable ∧ (∀ b, h = .raw b → 8 ≤ b.length) ∧ version h = 5 ∧ h.type 0 = 29 ∧
      givenLength h = 16 + 16 * bs.values.length
  | .bundleCtrl _ _ _ ps => ps = .none ∨ ps = .items []
  | .bundleAdd _ _ _ h' c ps => c.Rebuildable h' ∧ (ps = .none ∨ ps = .items [])
  | .experimenter .. => True
  | .other _ => h.type 0 ∉ structured
  | _ => False

end Twink.Of14

import Verif.Model.Of14Build
import Verif.Model.Of13Obj

/-!
# Handing a parsed OpenFlow 1.4 message to the builders again

`_obj` of twink/ofp5/build.py for what twink/ofp5/parse.py returns: `eval(obj.__class__.__name__)(*obj)`, the builder with the name of the
tuple's class called with the fields of the tuple (build.py L11-17).  The names and fields are those of the `namedtuple` calls in
twink/ofp5/parse.py; where no builder has the name it is a NameError, where the builder takes another number of arguments a TypeError.
The tuples of actions, instructions, buckets, bands, matches, hello elements and properties have the names of their builders (but for the
experimenter property of port statistics, which the parser never returns, see `Verif.Model.Of14Parse`).
-/

namespace Twink.Of14
open Fmt Of13

/-- `_obj` of a parsed record.  `ofp_table_features` returns a tuple of class `ofp_table_feature_prop_header` with eight fields (parse.py
L778-780) and the builder of that name takes two (build.py L794); `ofp_flow_update_full` returns one of class `ofp_flow_monitor_request` with
ten (parse.py L1131-1137), the builder takes seven (build.py L1126).  There are no builders for `ofp_flow_update_header` (parse.py L1113) and
`ofp_experimenter_multipart_` (parse.py L1166). -/
def objRec : Rec → Py Bytes
  | .tableFeatures .. => .error .typeError
  | .updateFull .. => .error .typeError
  | .updateHeader .. => .error .nameError
  | .experimenter .. => .error .nameError
  | r => buildRec r

/-- The parsed body given to `ofp_multipart_request`. build.py L623-638, and the concatenation in L641 -/
def objReqBody (type : Nat) (body : Body) : Py Bytes :=
  if type ∈ [0, 3, 7, 8, 11, 13] then .ok []
  else if type ∈ [1, 2, 4, 5, 6, 9, 10] then
    match body with
    | .none => .ok []
    | .raw b => .ok b
    | .one r => objRec r
    | _ => .error .valueError
  else if type = 12 then
    match body with
    | .raw b => .ok b
    | .many l => join objRec l
    | .one r => recAsList r
    | _ => .error .typeError
  else
    match body with
    | .raw b => .ok b
    | _ => .error .typeError

/-- The parsed body given to `ofp_multipart_reply`. build.py L646-669 -/
def objRepBody (type : Nat) (body : Body) : Py Bytes :=
  if type ∈ [0, 2, 8, 11] then
    match body with
    | .none => .ok []
    | .raw b => .ok b
    | .one r => objRec r
    | _ => .error .valueError
  else if type ∈ [1, 3, 4, 5, 6, 7, 9, 10, 12, 13] then
    match body with
    | .many l => join objRec l
    | .none => .ok []
    | .one r => recAsList r
    | _ => .error .valueError
  else if type = 0xffff then
    match body with
    | .raw b => .ok b
    | _ => .error .valueError
  else .error .valueError

/-- `_obj(message)` for a tuple returned by `parse`.  build.py L11-17.  A forwarded request has class `ofp_requestforward_` (parse.py L1421),
which is not the name of a builder; the argument of `eval` fails before the request is looked at. -/
def objMsg (rnd : Nat) : Msg → Py Bytes
  | .hello h es => buildHello rnd h.arg (tups es)
  | .error h t c d => buildError rnd h.arg t c (some d)
  | .errorExp h _ c x d => buildErrorExp rnd h.arg c x d
  | .features h a b c d e => buildFeatures rnd h.arg a b c d e
  | .config h f m => buildConfig rnd h.arg f (some m)
  | .packetIn h b tl r t c mt d => buildPacketIn rnd h.arg b tl r t c (.tup mt) d
  | .flowRemoved h c p r t ds dn i hd pc bc mt => buildFlowRemoved rnd h.arg c p r t ds dn i hd pc bc (.tup mt)
  | .portStatus _ r p => do
    let _ ← pack [B, X 7] [.int r]
    let _ ← buildPr p
    .error .nameError
  | .packetOut h b i _ as d => buildPacketOut rnd h.arg (some b) i (tups as) (some d)
  | .flowMod h c cm t cmd i hd p b op og f im mt is =>
    buildFlowMod rnd h.arg c cm t cmd i hd p (some b) (some op) (some og) f im (.tup mt) (tups is)
  | .groupMod h c t g bs => buildGroupMod rnd h.arg c t g (tups bs)
  | .portMod h p hw c k ps => buildPortMod rnd h.arg p hw c k (tups ps)
  | .tableMod h t c ps => buildTableMod rnd h.arg t c (tups ps)
  | .mpRequest h t f b => do
    let b ← objReqBody t b
    let d ← pack [H, H, X 4] [.int t, .int f]
    ofp_ rnd h.arg (d ++ b) (.one 18)
  | .mpReply h t f b => do
    let b ← objRepBody t b
    let d ← pack [H, H, X 4] [.int t, .int f]
    ofp_ rnd h.arg (d ++ b) (.one 19)
  | .experimenter h x t d => buildExperimenter rnd h.arg x t (some d)
  | .role h r g => buildRole rnd h.arg r g
  | .async h ps => buildAsync rnd h.arg (tups ps)
  | .meterMod h c f m bs => buildMeterMod rnd h.arg c f m (tups bs)
  | .roleStatus h r rs g ps => buildRoleStatus rnd h.arg r rs g (tups ps)
  | .bundleCtrl h b t f ps => buildBundleCtrl rnd h.arg b t f (tups ps)
  | .bundleAdd h b f m ps => buildBundleAdd rnd h.arg b f (objMsg rnd m) (tups ps)
  | .requestForward _ _ => .error .nameError
  | .other h d => ofp_ rnd h.arg d .any

end Twink.Of14

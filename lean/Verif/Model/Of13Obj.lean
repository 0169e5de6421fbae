import Verif.Model.Of13Build

/-!
# Handing a parsed OpenFlow 1.3 message to the builders again

`_obj` of twink/ofp4/build.py for whole messages.
-/

namespace Twink.Of13

/-- The header tuple made by the parser, as an argument. -/
def Hdr.arg (h : Hdr) : HdrArg := .tup (some h.version) (some h.type) (some h.length) (some h.xid)

/-- `_obj(message)` for a tuple returned by `parse`: `eval(message.__class__.__name__)(*message)`, the builder with the name of the
tuple's class called with the fields of the tuple.  The names and fields are those of the `namedtuple` calls in twink/ofp4/parse.py.
`ofp_port_mod` has five fields, the builder takes six arguments: TypeError.  twink/ofp4/build.py L16-22 -/
def objMsg (rnd : Nat) : Msg → Py Bytes
  | .hello h es => buildHello rnd h.arg (tups es)
  | .error h t c d => buildError rnd h.arg t c (some d)
  | .features h a b c d e => buildFeatures rnd h.arg a b c d e
  | .config h f m => buildConfig rnd h.arg f (some m)
  | .packetIn h b tl r t c mt d => buildPacketIn rnd h.arg b tl r t c (.tup mt) d
  | .flowRemoved h c p r t ds dn i hd pc bc mt => buildFlowRemoved rnd h.arg c p r t ds dn i hd pc bc (.tup mt)
  | .portStatus h r p => buildPortStatus rnd h.arg r (.tup p)
  | .packetOut h b i _ as d => buildPacketOut rnd h.arg (some b) i (tups as) (some d)
  | .flowMod h c cm t cmd i hd p b op og f mt is =>
    buildFlowMod rnd h.arg c cm t cmd i hd p (some b) (some op) (some og) f (.tup mt) (tups is)
  | .groupMod h c t g bs => buildGroupMod rnd h.arg c t g (tups bs)
  | .portMod .. => .error .typeError
  | .tableMod h t c => buildTableMod rnd h.arg t c
  | .mpRequest h t f b => buildMpRequest rnd h.arg t f b
  | .mpReply h t f b => buildMpReply rnd h.arg t f b
  | .queueReq h p => buildQueueReq rnd h.arg p
  | .queueRep h p qs => buildQueueRep rnd h.arg p (tups qs)
  | .role h r g => buildRole rnd h.arg r g
  | .async h a b c => buildAsync rnd h.arg [a.1, a.2] [b.1, b.2] [c.1, c.2]
  | .meterMod h c f m bs => buildMeterMod rnd h.arg c f m (tups bs)
  | .other h d => ofp_ rnd h.arg d .any

end Twink.Of13

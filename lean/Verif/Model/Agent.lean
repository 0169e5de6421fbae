import Verif.Model.Of13Parse

/-!
# The software switch, bess_of_agent.py

`switch_proc`, the handler of the messages from the controller, and `PortManager`, called by remote procedure calls.
Not modelled: the BESS daemon (its calls succeed or raise, see `Op`), printing, and threads (the functions run one after
another, the code has no locks: L126, L185).  A dictionary is the list of its items; the order of iteration, which Python 2
leaves open, is given by `Order`.
-/

namespace Twink.Agent
open Of13

/-- An order of iteration over dictionaries. -/
structure Order where
  items : {α : Type} → List (Nat × α) → List (Nat × α)
  perm : ∀ {α : Type} (l : List (Nat × α)), (items l).Perm l

/-- `of_port`, the fields of `ofp_port` and `pkt_inout_socket`; sockets are numbered. bess_of_agent.py L23-29 -/
structure OfPort where
  desc : PortT
  sock : Option Nat
  deriving DecidableEq, Repr

/-- A FLOW_MOD message in `flows`, the fields that are read again (L147-149). -/
structure Flow where
  table : Nat
  priority : Nat
  idle : Nat
  hard : Nat
  flags : Nat
  cookie : Nat
  mt : MatchT
  instrs : List Instr
  deriving DecidableEq, Repr

/-- The global variables `flows` (L36) and `of_ports` (L30-34), and `of_port_num` of the `PortManager` (L216). -/
structure St where
  flows : List (Nat × Flow)
  ports : List (Nat × OfPort)
  lastNo : Nat
  deriving DecidableEq, Repr

/-- What the agent does: `channel.send(message)`, or `sock.send(data)` on the socket of a port. -/
inductive Eff where
  | send (m : Bytes)
  | out (sock : Nat) (data : Bytes)
  deriving DecidableEq, Repr

/-- `d[k] = v` -/
def put (d : List (Nat × α)) (k : Nat) (v : α) : List (Nat × α) :=
  if d.any (·.1 == k) then d.map (fun e => if e.1 = k then (k, v) else e) else d ++ [(k, v)]

/-- `del d[k]` -/
def del (d : List (Nat × α)) (k : Nat) : List (Nat × α) := d.filter (·.1 != k)

/-- `msg.header` -/
def hdrOf : Msg → Hdr
  | .hello h .. => h
  | .error h .. => h
  | .features h .. => h
  | .config h .. => h
  | .packetIn h .. => h
  | .flowRemoved h .. => h
  | .portStatus h .. => h
  | .packetOut h .. => h
  | .flowMod h .. => h
  | .groupMod h .. => h
  | .portMod h .. => h
  | .tableMod h .. => h
  | .mpRequest h .. => h
  | .mpReply h .. => h
  | .queueReq h .. => h
  | .queueRep h .. => h
  | .role h .. => h
  | .async h .. => h
  | .meterMod h .. => h
  | .other h .. => h

/-- `b.ofp_header(4, type, 0, xid)` -/
def replyHdr (rnd type xid : Nat) : Py HdrArg := do
  .ok (.raw (← ofpHeader rnd (some 4) (some type) (some 0) (some xid)))

/-- The texts in L159: "UC Berkeley", "Intel Xeon", "BESS", "commit-6e343". -/
def descRec : Rec := .desc (some [85, 67, 32, 66, 101, 114, 107, 101, 108, 101, 121])
  (some [73, 110, 116, 101, 108, 32, 88, 101, 111, 110]) (some [66, 69, 83, 83])
  (some [99, 111, 109, 109, 105, 116, 45, 54, 101, 51, 52, 51]) none

/-- `b.ofp_flow_stats(None, f.table_id, 1, 2, …)`. L147-149 -/
def flowRec (f : Flow) : Rec :=
  .flowStats none f.table 1 2 f.priority f.idle f.hard f.flags f.cookie 0 0 (.tup f.mt) (tups f.instrs)

/-- The body of a multipart reply, `none` if the request is not answered. bess_of_agent.py L145-159 -/
def mpBody (o : Order) (st : St) (type : Nat) : Py (Option Body) :=
  if type = 1 then do
    .ok (some (.many [.raw (← join buildRec ((o.items st.flows).map fun f => .tup (flowRec f.2)))]))
  else if type = 13 then do
    .ok (some (.many [.raw (← join buildPort ((o.items st.ports).map fun p => .tup p.2.desc))]))
  else if type = 0 then do
    .ok (some (.raw (← buildRec descRec)))
  else .ok none

/-- FLOW_MOD. bess_of_agent.py L138-142.  The tuple of the match is handed to `oxm.parse_list` when a message with a known
cookie is reported, which raises TypeError. -/
def flowModStep (st : St) (f : Flow) : Py St :=
  if st.flows.any (·.1 == f.cookie) then .error .typeError
  else .ok { st with flows := put st.flows f.cookie f }

/-- `msg.actions[0].port` (L162): only `ofp_action_output` has this field. -/
def firstPort : List Action → Py Nat
  | [] => .error .indexError
  | .output _ _ port _ :: _ => .ok port
  | _ :: _ => .error .attributeError

/-- PACKET_OUT. bess_of_agent.py L162-170.  `sock.send` is assumed not to raise. -/
def packetOutStep (st : St) (actions : List Action) (data : Bytes) : Py (List Eff) := do
  let index ← firstPort actions
  match st.ports.lookup index with
  | none => .error .keyError
  | some p =>
    match p.sock with
    | some s => .ok [.out s data]
    | none => .ok []

/-- `switch_proc` after parsing.  Exceptions come before all effects.  An attribute that the tuple does not have would be
an AttributeError; this does not happen, as the kind of tuple is determined by the type. bess_of_agent.py L128-183 -/
def switchMsg (o : Order) (rnd : Nat) (st : St) (msg : Msg) : Py (St × List Eff) :=
  let t := (hdrOf msg).type
  let x := (hdrOf msg).xid
  if t = 5 then do
    .ok (st, [.send (← buildFeatures rnd (← replyHdr rnd 6 x) 1 2 3 0 0xf)])
  else if t = 7 then do
    .ok (st, [.send (← buildConfig rnd (← replyHdr rnd 8 x) 0 (some 0xffe5))])
  else if t = 24 then
    match msg with
    | .role _ r g => do .ok (st, [.send (← buildRole rnd (← replyHdr rnd 25 x) r g)])
    | _ => .error .attributeError
  else if t = 14 then
    match msg with
    | .flowMod _ c _ tb _ i hd p _ _ _ f mt is => do .ok (← flowModStep st ⟨tb, p, i, hd, f, c, mt, is⟩, [])
    | _ => .error .attributeError
  else if t = 18 then
    match msg with
    | .mpRequest _ type _ _ => do
      match ← mpBody o st type with
      | some body => .ok (st, [.send (← buildMpReply rnd (← replyHdr rnd 19 x) type 0 body)])
      | none => .ok (st, [])
    | _ => .error .attributeError
  else if t = 13 then
    match msg with
    | .packetOut _ _ _ _ acts data => do .ok (st, ← packetOutStep st acts data)
    | _ => .error .attributeError
  else if t = 0 ∨ t = 9 ∨ t = 20 then .ok (st, [])
  else .error .assertion

/-- `switch_proc(message, ofchannel)`: the new state and the effects; after an exception nothing has been sent and the state is
as before. bess_of_agent.py L122-185 -/
def switchProc (o : Order) (rnd : Nat) (st : St) (m : Bytes) : Py (St × List Eff) := do
  switchMsg o rnd st (← parse m 0)

/-- Value of a hexadecimal digit. -/
def hexDigit (c : UInt8) : Option UInt8 :=
  if 48 ≤ c ∧ c ≤ 57 then some (c - 48)
  else if 97 ≤ c ∧ c ≤ 102 then some (c - 87)
  else if 65 ≤ c ∧ c ≤ 70 then some (c - 55)
  else none

/-- `binascii.a2b_hex`: an odd length or another character is a TypeError. -/
def a2bHex : Bytes → Py Bytes
  | [] => .ok []
  | [_] => .error .typeError
  | a :: b :: r =>
    match hexDigit a, hexDigit b with
    | some x, some y => do .ok ((x * 16 + y) :: (← a2bHex r))
    | _, _ => .error .typeError

/-- What a method of the `PortManager` returns: the texts in L220, L237, L252, L254. -/
inductive Ret where
  | refused
  | added (no : Nat)
  | deleted (no : Nat)
  | notFound
  deriving DecidableEq, Repr

/-- A call.  `created`: `dp.create_port` (L224) did not raise.  `sock`: the socket made by `init_pktinout_port` (L226), the
outer `none` if it raised.  `destroyed`: the calls in L248-249 did not raise. -/
inductive Op where
  | add (dev mac : Bytes) (created : Bool) (sock : Option (Option Nat))
  | del (dev : Bytes) (destroyed : Bool)
  deriving DecidableEq, Repr

/-- `default_port._replace(…)`. bess_of_agent.py L27-29, L227-228 -/
def newPort (no : Nat) (hw dev : Bytes) (sock : Option Nat) : OfPort :=
  ⟨⟨no, hw, .str dev, 0, 0, 0x802, 0, 0, 0, 0, 0⟩, sock⟩

/-- `b.ofp_port_status(b.ofp_header(4, OFPT_PORT_STATUS, 0, 0), reason, b.ofp_port(…))`. L231-234, L243-247 -/
def statusMsg (rnd reason : Nat) (p : PortT) : Py Bytes := do
  let h ← replyHdr rnd 12 0
  let d ← buildPort p
  buildPortStatus rnd h reason (.raw d)

/-- `PortManager.add_port(dev, mac)`; the state and the effects are kept when an exception is raised.
bess_of_agent.py L218-237 -/
def addPort (rnd : Nat) (st : St) (dev mac : Bytes) (created : Bool) (sock : Option (Option Nat)) : St × List Eff × Py Ret :=
  if st.lastNo + 1 = 0xfffffffe then (st, [], .ok .refused)
  else
    let no := st.lastNo + 1
    let st1 := { st with lastNo := no }
    if created = false then (st1, [], .error .other)
    else
      match sock with
      | none => (st1, [], .error .other)
      | some s =>
        match a2bHex (mac.take 12) with
        | .error e => (st1, [], .error e)
        | .ok hw =>
          let p := newPort no hw dev s
          let st2 := { st1 with ports := put st1.ports no p }
          match statusMsg rnd 0 p.desc with
          | .error e => (st2, [], .error e)
          | .ok m => (st2, [.send m], .ok (.added no))

/-- `PortManager.del_port(dev)`. bess_of_agent.py L239-254 -/
def delPort (o : Order) (rnd : Nat) (st : St) (dev : Bytes) (destroyed : Bool) : St × List Eff × Py Ret :=
  match (o.items st.ports).find? (fun p => p.2.desc.name = .str dev) with
  | none => (st, [], .ok .notFound)
  | some (no, p) =>
    match statusMsg rnd 1 p.desc with
    | .error e => (st, [], .error e)
    | .ok m =>
      if destroyed = false then (st, [.send m], .error .other)
      else ({ st with ports := del st.ports no }, [.send m], .ok (.deleted no))

/-- A call of the port manager. -/
def portOp (o : Order) (rnd : Nat) (st : St) : Op → St × List Eff × Py Ret
  | .add dev mac created sock => addPort rnd st dev mac created sock
  | .del dev destroyed => delPort o rnd st dev destroyed

/-- The state at the start: L30-36, L216, and the sockets made in L293-295 (`br-int` has none). -/
def start (vxlan dpif : Option Nat) : St where
  flows := []
  ports :=
    [(0xfffffffe, ⟨⟨0xfffffffe, [0, 0, 0xde, 0xad, 0xbe, 0xef], .str [98, 114, 45, 105, 110, 116], 0, 0, 0, 0, 0, 0, 0, 0⟩, none⟩),
     (1, ⟨⟨1, [0, 0, 0xde, 0xad, 0xde, 0xad], .str [118, 120, 108, 97, 110], 0, 0, 0, 0, 0, 0, 0, 0⟩, vxlan⟩),
     (2, ⟨⟨2, [0, 0, 0, 0, 0, 1], .str [100, 112, 105, 102], 0, 0, 0, 0, 0, 0, 0, 0⟩, dpif⟩)]
  lastNo := 2

end Twink.Agent

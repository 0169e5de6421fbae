import Verif.Model.Controller

/-!
# Open vSwitch helpers, twink/ovs.py

Strings of the command line are lists of characters.
-/

namespace Twink.Ovs

/-- A Python `str` of the command line. -/
abbrev Str := List Char

/-- `argtype` in the table of options: `int` or `str`. -/
inductive ArgTy where
  | int
  | str
  deriving DecidableEq, Repr

/-- A row of `option_list` without the name: double hyphen, argument, joined with an equal sign. twink/ovs.py L78 -/
structure Info where
  detail : Bool
  arg : Option ArgTy
  join : Bool
  deriving DecidableEq, Repr

/-- `option_list`, the keys of `known_opts` with their rows. twink/ovs.py L79-115 -/
def known : List (Str × Info) :=
  [("t".toList, ⟨false, some .int, false⟩), ("timeout".toList, ⟨true, some .int, true⟩),
   ("strict".toList, ⟨true, none, false⟩),
   ("readd".toList, ⟨true, none, false⟩),
   ("F".toList, ⟨false, some .str, false⟩), ("flow_format".toList, ⟨true, some .str, true⟩),
   ("P".toList, ⟨false, some .str, false⟩), ("packet_in_format".toList, ⟨true, some .str, true⟩),
   ("m".toList, ⟨false, none, false⟩), ("more".toList, ⟨true, none, false⟩),
   ("timestamp".toList, ⟨true, none, false⟩),
   ("sort".toList, ⟨true, some .str, true⟩),
   ("rsort".toList, ⟨true, some .str, true⟩),
   ("unixctl".toList, ⟨true, some .str, true⟩),
   ("h".toList, ⟨false, none, false⟩), ("help".toList, ⟨true, none, false⟩),
   ("detach".toList, ⟨true, none, false⟩),
   ("no_chdir".toList, ⟨true, none, false⟩),
   ("pidfile".toList, ⟨true, some .str, true⟩),
   ("overwrite_pidfile".toList, ⟨true, none, false⟩),
   ("monitor".toList, ⟨true, none, false⟩),
   ("pipe_handle".toList, ⟨true, some .str, true⟩),
   ("service".toList, ⟨true, none, false⟩),
   ("service-monitor".toList, ⟨true, none, false⟩),
   ("V".toList, ⟨false, none, false⟩), ("version".toList, ⟨true, none, false⟩),
   ("O".toList, ⟨false, some .str, false⟩), ("protocols".toList, ⟨true, some .str, true⟩),
   ("v".toList, ⟨false, some .str, false⟩), ("verbose".toList, ⟨true, some .str, true⟩),
   ("log_file".toList, ⟨true, some .str, true⟩),
   ("syslog_target".toList, ⟨true, some .str, true⟩),
   ("p".toList, ⟨false, some .str, false⟩), ("private_key".toList, ⟨true, some .str, true⟩),
   ("c".toList, ⟨false, some .str, false⟩), ("certificate".toList, ⟨true, some .str, true⟩),
   ("C".toList, ⟨false, some .str, false⟩), ("ca_cert".toList, ⟨true, some .str, true⟩)]

/-- `option.replace("_", "-")`. twink/ovs.py L122 -/
def dashes (name : Str) : Str := name.map fun c => if c = '_' then '-' else c

/-- `tmp`. twink/ovs.py L122-124 -/
def flag (name : Str) (i : Info) : Str :=
  let tmp := '-' :: dashes name
  if i.detail then '-' :: tmp else tmp

/-- One round of the loop over the options: the arguments appended to `ret`.  `conv` stands for `str(argtype(value))`, which
may raise.  twink/ovs.py L119-134 -/
def optArgs (conv : ArgTy → V → Py Str) (name : Str) (value : Option V) : Py (List Str) :=
  match known.lookup name with
  | none => .error .assertion
  | some i =>
    match i.arg, value with
    | some ty, some v => do
      let sval ← conv ty v
      if i.join && sval ≠ [] then .ok [flag name i ++ '=' :: sval]
      else .ok [flag name i, sval]
    | _, _ => .ok [flag name i]

/-- `_make_ofctl_options(options)`; the dictionary is given by its items in the order of iteration. twink/ovs.py L117-135 -/
def makeOptions (conv : ArgTy → V → Py Str) : List (Str × Option V) → Py (List Str)
  | [] => .ok []
  | (name, value) :: rest => do
    let a ← optArgs conv name value
    let as ← makeOptions conv rest
    .ok (a ++ as)

/-- `("OpenFlow10","OpenFlow11","OpenFlow12","OpenFlow13")[version - 1]`: index -1 is the last. twink/ovs.py L59 -/
def protoName : Option Nat → Py Str
  | none => .error .typeError
  | some 0 => .ok "OpenFlow13".toList
  | some 1 => .ok "OpenFlow10".toList
  | some 2 => .ok "OpenFlow11".toList
  | some 3 => .ok "OpenFlow12".toList
  | some 4 => .ok "OpenFlow13".toList
  | some _ => .error .indexError

/-- `options` after L55-59.  `text` makes a value of a string.  (A new key comes last here; Python 2 leaves the order open.)
twink/ovs.py L55-59 -/
def withProto (text : Str → V) (version : Option Nat) (options : List (Str × Option V)) : Py (List (Str × Option V)) :=
  if version ≠ some 1 then
    if options.any (fun o => o.1 = "O".toList || o.1 = "protocols".toList) then .ok options
    else do
      let p ← protoName version
      .ok (options ++ [("O".toList, some (text p))])
  else .ok options

/-- What `ofctl` does: the temporary server is started, the command is run unless an exception comes first, the server is
stopped. -/
inductive Effect where
  | start
  | run (cmd : List Str)
  | halt
  deriving DecidableEq, Repr

/-- The command line. twink/ovs.py L60-64; `addr` is the address of the temporary server, `"tcp:%s:%d" % addr`. -/
def ofctlCmd (conv : ArgTy → V → Py Str) (text : Str → V) (version : Option Nat) (addr action : Str) (args : List Str)
    (options : List (Str × Option V)) : Py (List Str) := do
  let o ← withProto text version options
  let os ← makeOptions conv o
  .ok (["ovs-ofctl".toList] ++ os ++ [action, addr] ++ args)

/-- `ofctl(action, *args, **options)`: effects, and the exception if one is raised before the command runs.
twink/ovs.py L51-73 -/
def ofctl (conv : ArgTy → V → Py Str) (text : Str → V) (version : Option Nat) (addr action : Str) (args : List Str)
    (options : List (Str × Option V)) : List Effect × Py Unit :=
  match ofctlCmd conv text version addr action args options with
  | .ok cmd => ([.start, .run cmd, .halt], .ok ())
  | .error e => ([.start, .halt], .error e)

/-- The handler of the server in `rule2ofp`: messages sent back and the new value of `results`. twink/ovs.py L14-21 -/
def ruleHandle (results : List Bytes) (msg : Bytes) : Py (List Bytes × List Bytes) := do
  let (v, t, _, x) ← parseHeader msg
  if v = 1 ∧ t = 18 then do
    let r ← pack hdrFmt [.int v, .int 19, .int 8, .int x]
    .ok ([r], results)
  else if v ≠ 1 ∧ t = 20 then do
    let r ← pack hdrFmt [.int v, .int 21, .int 8, .int x]
    .ok ([r], results)
  else if t = 14 then .ok ([], results ++ [msg])
  else .ok ([], results)

/-- All messages of the connections: replies sent and `results`; an exception in the handler ends the connection (`none`). -/
def ruleRun (results : List Bytes) : List Bytes → Py (List Bytes × List Bytes)
  | [] => .ok ([], results)
  | m :: ms => do
    let (s, r) ← ruleHandle results m
    let (ss, r') ← ruleRun r ms
    .ok (s ++ ss, r')

/-- `AutoPacketOut.handle_async(message, channel)`: the message passed to `self.send`, if any.  `parent` is the
`handle_async` of the other base classes, if they have one.  twink/ovs.py L145-164 -/
def autoAsync (enabled : Bool) (parent : Bytes → Py Unit) (m : Bytes) : Py (Option Bytes) := do
  parent m
  if !enabled then .ok none
  else do
    let (version, oftype, _, xid) ← parseHeader m
    if oftype = 10 then
      match ← unpackFrom [Fmt.I] m 8 with
      | [.int b] =>
        if b = 0xffffffff then .ok none
        else if version = 1 then do
          let r ← pack [Fmt.B, Fmt.B, Fmt.H, Fmt.I, Fmt.I, Fmt.H, Fmt.H]
            [.int version, .int 13, .int (calcsize [Fmt.B, Fmt.B, Fmt.H, Fmt.I, Fmt.I, Fmt.H, Fmt.H]), .int xid, .int b,
             .int 0xffff, .int 0]
          .ok (some r)
        else do
          let r ← pack [Fmt.B, Fmt.B, Fmt.H, Fmt.I, Fmt.I, Fmt.I, Fmt.H, Fmt.X 6]
            [.int version, .int 13, .int (calcsize [Fmt.B, Fmt.B, Fmt.H, Fmt.I, Fmt.I, Fmt.I, Fmt.H, Fmt.X 6]), .int xid, .int b,
             .int 0xfffffffd, .int 0]
          .ok (some r)
      | _ => .error .valueError
    else .ok none

/-- A message received on an auto-packet-out channel: it is dispatched as in `ControllerChannel.handle_proxy` (base.py
L434-471), and a PACKET_OUT of `handle_async` goes through `ControllerChannel.send` (base.py L383-421).  Messages not for
`handle_async` go to other handlers, which are not part of this channel class. -/
def autoRecv (enabled : Bool) (parent : Bytes → Py Unit) (alive : Nat → Bool) (now : Clock) (wb wm : Bool) (st : Ctl) (m : Bytes) :
    Ctl × Py Unit :=
  match ctlHandle true alive st m with
  | (st, .async) =>
    match autoAsync enabled parent m with
    | .error e => (st, .error e)
    | .ok none => (st, .ok ())
    | .ok (some r) => ctlSend alive now wb wm st r none
  | (st, _) => (st, .ok ())

end Twink.Ovs

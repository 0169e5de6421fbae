import Verif.Model.Sync

/-!
# Simple synchronous requests

Models `/repo/twink/base.py`: `SyncChannel._sync_simple` (873-882), `echo`, `feature`, `get_config`, `barrier` (891-904), on top of
`send_sync` (`Verif.Model.Sync`).
-/

namespace Twink.Simple
open Twink

/-- Which method. -/
inductive Req where
  | echo | feature | getConfig | barrier
  deriving DecidableEq, Repr

/-- `(req_oftype, res_oftype)` (base.py:892, 895, 898, 901-904); `version` is `self.version`. -/
def types (version : Option Nat) : Req → Nat × Nat
  | .echo => (2, 3)
  | .feature => (5, 6)
  | .getConfig => (7, 8)
  | .barrier => if version = some 1 then (18, 19) else (20, 21)

/-- `ofp_header_only(req_oftype, version=self.version)` (base.py:874, 247-250); `xid` is what `hms_xid()` returns. -/
def request (version : Option Nat) (xid : Nat) (r : Req) : Py Bytes :=
  match version with
  | none => .error .structError
  | some v => headerOnly (types version r).1 v xid

/-- The rest of `_sync_simple` (base.py:875-882) after `send_sync` has returned `d`. `OpenflowError` is not defined anywhere. -/
def result (version : Option Nat) (r : Req) (d : Option Bytes) : Py Bytes :=
  match d with
  | none => .error .channelClose
  | some [] => .error .channelClose
  | some (b :: m) =>
    match parseHeader (b :: m) with
    | .error e => .error e
    | .ok (_, oftype, _, _) => if oftype ≠ (types version r).2 then .error .nameError else .ok (b :: m)

end Twink.Simple

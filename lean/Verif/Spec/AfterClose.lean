import Verif.Model.Sync
import Verif.Spec.Hello

/-! What the receiving thread still stores for a request, and what becomes of its value. -/

namespace Twink.AfterClose
open Spec

/-- The message that the receiving thread stores for the tracker `t` with this step, if any. -/
def lands (t : Nat) (st : SyncSt) : SyncOp → List Bytes
  | .recvStep =>
    match st.rpc with
    | .found m t' => if t' = t ∧ 8 ≤ m.length then [m] else []
    | _ => []
  | _ => []

/-- The messages stored for the tracker `t` in a run. -/
def landed (t : Nat) (st : SyncSt) : List SyncOp → List Bytes
  | [] => []
  | op :: ops => lands t st op ++ landed t (syncOp st op) ops

/-- Parts of multipart replies (type 17 in OpenFlow 1.0, 19 later) are joined, any other message replaces what is there. -/
def joined (d m : Bytes) : Bytes :=
  if (u8 m 0 = 1 ∧ u8 m 1 = 17) ∨ (u8 m 0 ≠ 1 ∧ u8 m 1 = 19) then d ++ m else m

/-- The threads in `close` do not move. -/
def NoClosing (ops : List SyncOp) : Prop := ∀ op ∈ ops, ∀ i, op ≠ .closeStep i

end Twink.AfterClose

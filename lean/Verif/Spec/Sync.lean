import Verif.Model.Sync
import Verif.Spec.Controller

/-! Vocabulary for synchronous requests. -/

namespace Twink.Spec

/-- STATS_REPLY (OpenFlow 1.0) is type 17, MULTIPART_REPLY (later) type 19. -/
def IsMultipartRep (m : Bytes) : Prop := if u8 m 0 = 1 then u8 m 1 = 17 else u8 m 1 = 19
instance : DecidablePred IsMultipartRep := fun m => by unfold IsMultipartRep; infer_instance

/-- The last message of a reply: not multipart, or multipart without the "more" flag (bit 0 of the 16 bits at offset 10). -/
def IsFinal (m : Bytes) : Prop := IsMultipartRep m → 12 ≤ m.length ∧ u16 m 10 % 2 = 0
instance : DecidablePred IsFinal := fun m => by unfold IsFinal; infer_instance

/-- The reply made of a sequence of messages with one id: multipart replies are appended, another message replaces everything. -/
def assembled (ms : List Bytes) : Option Bytes :=
  ms.foldl (fun acc m => if IsMultipartRep m then some (acc.getD [] ++ m) else some m) none

/-- The messages with transaction id `x`. -/
def withId (x : Nat) (ms : List Bytes) : List Bytes := ms.filter (fun m => u32 m 4 = x)

/-- Registered and not yet removed requests of a `send_sync` call: id and tracker. -/
def outCall (c : SCall) : List (Nat × Nat) :=
  match c.pc with
  | .sending | .waiting | .popping => [(c.xid, c.tr)]
  | _ => []

/-- Outstanding requests of a thread. -/
def outstanding : SThread → List (Nat × Nat)
  | .sync c => outCall c
  | .multi c =>
    match c.pc with
    | .done | .failed _ => []
    | .barrier s => c.prepared ++ outCall s
    | _ => c.prepared

/-- Outstanding requests use different ids. -/
def DistinctIds (st : SyncSt) : Prop :=
  (∀ (i : Nat) (th : SThread), st.threads[i]? = some th → ((outstanding th).map (·.1)).Nodup) ∧
  (∀ (i j : Nat) (th th' : SThread), st.threads[i]? = some th → st.threads[j]? = some th' → i ≠ j →
    ∀ p ∈ outstanding th, ∀ q ∈ outstanding th', p.1 ≠ q.1)

/-- In all states of the run, simultaneously outstanding requests use different ids. -/
def DistinctRun (st : SyncSt) : List SyncOp → Prop
  | [] => DistinctIds st
  | op :: ops => DistinctIds st ∧ DistinctRun (syncOp st op) ops

/-- Nobody closes the channel during the run. -/
def NoClose (ops : List SyncOp) : Prop := ∀ op ∈ ops, op ≠ .close

end Twink.Spec

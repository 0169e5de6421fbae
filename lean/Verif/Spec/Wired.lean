import Verif.Model.Wired
import Verif.Spec.Sync
import Verif.Spec.Session

/-!
# Vocabulary for a controller and a switch on one connection
-/

namespace Twink.Wired
open Session Spec

/-- A message with the right length in its header that is not a hello. -/
def Plain (m : Bytes) : Prop := WellFormed m ∧ u8 m 1 ≠ 0

/-- `r` is a whole reply to `m`, of the type that the standard requires and with the id of `m`. -/
def Answers (m r : Bytes) : Prop := ∃ t, requires m = some t ∧ Agent.Replies m t r ∧ IsFinal r

/-- A handler that sends at most one message for each message, and this one is a reply to it; no barrier is answered. -/
def Polite (h : Handle σ) : Prop :=
  ∀ u m, WellFormed m → u8 m 1 ≠ 0 → u8 m 1 ≠ 2 →
    (h u m).2.1 = [] ∨ ∃ r, (h u m).2.1 = [r] ∧ Answers m r ∧ u8 r 1 ≠ 21

/-- Nobody closes the channel of the controller. -/
def Open (ops : List (NOp σ)) : Prop := ∀ op ∈ ops, op ≠ .ctl .close

/-- What other threads of the switch send are messages. -/
def OwnLong (ops : List (NOp σ)) : Prop := ∀ u bs, NOp.own u bs ∈ ops → ∀ b ∈ bs, 8 ≤ b.length

/-- What other threads of the switch send does not have the id `x`. -/
def Apart (x : Nat) (ops : List (NOp σ)) : Prop := ∀ u bs, NOp.own u bs ∈ ops → ∀ b ∈ bs, u32 b 4 ≠ x

/-- Everything sent by the controller. -/
def asked (n : Net σ) : List Bytes := n.ctl.sent.map (·.1)

/-- No message is on the way and the receiving thread of the controller has finished with the last one. -/
def AtRest (n : Net σ) : Prop := n.up = [] ∧ n.down = [] ∧ n.ctl.rpc = .idle

/-- At no time two outstanding requests of the controller have the same id. -/
def Distinct (h : Handle σ) (n : Net σ) (ops : List (NOp σ)) : Prop := ∀ k, DistinctIds (run h n (ops.take k)).ctl

/-- The handler returns for this message, whatever its state. -/
def Takes (h : Handle σ) (m : Bytes) : Prop := u8 m 1 = 2 ∨ ∀ u, (h u m).2.2 = .ok ()

/-- The handler sends something for this message, whatever its state. -/
def Heeds (h : Handle σ) (m : Bytes) : Prop := u8 m 1 = 2 ∨ ∀ u, (h u m).2.1 ≠ []

/-- Steps of the network alone: the switch takes a message, the controller receives. -/
def IsNet : NOp σ → Prop
  | .switch _ | .deliver | .ctl .recvStep => True
  | _ => False

end Twink.Wired

import Verif.Model.Parallel
import Verif.Spec.Rate

/-! What a user of a parallel channel observes. -/

namespace Twink.Par

/-- Every handed over message has been dealt with: no thread of the channel or of its rate limiter is left. -/
def AtRest (s : Chan) : Prop :=
  (∀ t ∈ s.threads, t.pc = .done) ∧ Spec.NoLoops s.pool ∧ ∀ p ∈ s.pool.proxies, p.pc = .done

/-- The sequence of steps of the rate limiter in a run of the channel. -/
def poolOps (s : Chan) : List Op → List ROp
  | [] => []
  | op :: ops =>
    (match op with
     | .recv m => if s.died = none ∧ ratedCall s.rate m = .ok true then [.submit] else []
     | .thread _ _ => []
     | .pool .submit _ => []
     | .pool (.proxy j _) _ => [.proxy j false]
     | .pool op _ => [op]) ++ poolOps (step s op) ops

/-- Schedules in which the thread of a message has called the handler before the next message is received. -/
def Prompt (s : Chan) : List Op → Prop
  | [] => True
  | .recv m :: ops => (∀ t ∈ s.threads, t.pc ≠ .start) ∧ Prompt (step s (.recv m)) ops
  | op :: ops => Prompt (step s op) ops

/-- The received messages have a header (`OpenflowChannel.recv` has parsed it). -/
def Op.HasHeader : Op → Prop
  | .recv m => 8 ≤ m.length
  | _ => True

end Twink.Par

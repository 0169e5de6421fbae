import Verif.Model.StreamServer

/-! # What is expected of the stream server -/

namespace Twink.Srv

/-- The states the server can get into. -/
def Reachable (s : Server) : Prop := ∃ ops, s = runs fresh ops

/-- Connections whose `loop` has begun and which have not been taken out of the set. -/
def InSet (p : ConnPc) : Prop := p = .looping ∨ p = .reading ∨ p = .closing ∨ p = .removing ∨ p = .died

/-- Steps in which no exception other than ChannelClose comes out of a handler, and no unexpected one out of a read. -/
def Op.Calm : Op → Prop
  | .conn _ r o => o ≠ .raises ∧ ∀ e, defaultWrapper r ≠ .error e
  | _ => True

/-- Steps in which accepting clients and sending them a hello does not fail. -/
def Op.Lucky : Op → Prop
  | .run a sent => a ≠ .error ∧ sent = true
  | _ => True

/-- A step of one of the server's threads (not a call of its methods) that changes something. -/
def Moves (s s' : Server) : Prop :=
  s' ≠ s ∧ ((∃ a sent, s' = step s (.run a sent)) ∨ (∃ k r o, s' = step s (.conn k r o)) ∨ s' = step s .close)

end Twink.Srv

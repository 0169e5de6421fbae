import Verif.Model.Agent

/-!
# The two threads of the software switch

The thread of the connection runs `switch_proc`, the main thread runs `PortManager` (bess_of_agent.py L199-206, L257-263, L300-305).  Both use the
dictionary `of_ports` without a lock (L126, L185).  Here the steps of `add_port`, `del_port` and of the answer to a request for the port
descriptions (L152-156) are interleaved.

The dictionary is its table of slots, as in CPython 2.7: an iterator keeps an index into the table and the number of entries at its creation, and
`next` raises RuntimeError if the number has changed (Objects/dictobject.c, `dictiter_iternextvalue`).  An insertion may rearrange the table in any way (hash
values, resizing); a deletion leaves an empty slot.  The key of an entry is its `port_no` (C52).

Not modelled here: calls of the BESS daemon that raise and descriptions that cannot be packed (`Agent`, C53), the bytes of the messages (`Agent.statusMsg`,
`Agent.mpBody`), other requests (they do not use `of_ports`, except PACKET_OUT, which only looks one port up).
-/

namespace Twink.Race
open Of13 (PortT)

/-- What is sent to the controller: PORT_STATUS with reason ADD or DELETE (L231-234, L243-247), and the reply with the port descriptions. -/
inductive Msg where
  | add (p : PortT)
  | del (p : PortT)
  | desc (l : List PortT)
  deriving DecidableEq

/-- Where `PortManager` is: before `of_ports[…] = …` (L227), before `channel.send` (L231), before `channel.send` (L243), before `del of_ports[…]` (L250). -/
inductive Mgr where
  | idle
  | insert (p : PortT)
  | announce (p : PortT)
  | retract (p : PortT)
  | remove (p : PortT)
  deriving DecidableEq

/-- Where the thread of the connection is: waiting for a request; in the loop of L156 with the size and the index of the iterator and the ports seen; before
`channel.send` (L153); ended by the exception. -/
inductive Loop where
  | idle
  | iter (size index : Nat) (seen : List PortT)
  | reply (seen : List PortT)
  | dead
  deriving DecidableEq

structure St where
  slots : List (Option PortT)
  lastNo : Nat
  mgr : Mgr
  loop : Loop
  out : List Msg
  deriving DecidableEq

/-- The entries of the dictionary. -/
def ports (s : St) : List PortT := s.slots.filterMap id

/-- `next` of the iterator: the first full slot from an index on, and the index behind it. -/
def nextFrom (slots : List (Option PortT)) (i : Nat) : Option (PortT × Nat) :=
  match h : slots[i]? with
  | none => none
  | some (some p) => some (p, i + 1)
  | some none => nextFrom slots (i + 1)
termination_by slots.length - i
decreasing_by
  have := (List.getElem?_eq_some_iff.1 h).1
  omega

/-- Who moves.  `add`, `del`: a call of the port manager begins, up to L226 and up to L242; `del` gets the number of the entry that was found by its name.
`insert`: L227-228, with the table afterwards.  `mgr`: L231, L243 or L250.  `request`: a request for the port descriptions arrives.  `next`: one round of the loop in
L156.  `send`: L153. -/
inductive Op where
  | add (hw dev : Bytes)
  | del (no : Nat)
  | insert (slots : List (Option PortT))
  | mgr
  | request
  | next
  | send
  deriving DecidableEq

/-- bess_of_agent.py L145-156, L218-254 -/
def step (s : St) : Op → St
  | .add hw dev =>
    match s.mgr with
    | .idle =>
      if s.lastNo + 1 = 0xfffffffe then s
      else if hw.length = 6 ∧ dev.length ≤ 16 then
        { s with lastNo := s.lastNo + 1, mgr := .insert (Agent.newPort (s.lastNo + 1) hw dev none).desc }
      else s
    | _ => s
  | .del no =>
    match s.mgr with
    | .idle =>
      match (ports s).find? (fun p => p.portNo = no) with
      | some p => { s with mgr := .retract p }
      | none => s
    | _ => s
  | .insert slots =>
    match s.mgr with
    | .insert p => if (slots.filterMap id).Perm (p :: ports s) then { s with slots := slots, mgr := .announce p } else s
    | _ => s
  | .mgr =>
    match s.mgr with
    | .announce p => { s with out := s.out ++ [.add p], mgr := .idle }
    | .retract p => { s with out := s.out ++ [.del p], mgr := .remove p }
    | .remove p => { s with slots := s.slots.map (fun e => if e = some p then none else e), mgr := .idle }
    | _ => s
  | .request =>
    match s.loop with
    | .idle => { s with loop := .iter (ports s).length 0 [] }
    | _ => s
  | .next =>
    match s.loop with
    | .iter n i seen =>
      if (ports s).length ≠ n then { s with loop := .dead }
      else
        match nextFrom s.slots i with
        | some (p, j) => { s with loop := .iter n j (seen ++ [p]) }
        | none => { s with loop := .reply seen }
    | _ => s
  | .send =>
    match s.loop with
    | .reply seen => { s with out := s.out ++ [.desc seen], loop := .idle }
    | _ => s

def runs (s : St) : List Op → St
  | [] => s
  | op :: ops => runs (step s op) ops

end Twink.Race

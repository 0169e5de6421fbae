import Verif.Spec.Agent

/-!
# Specification of flow tables

OpenFlow 1.3.2 sections 5.2 and 6.4, for the commands ADD and DELETE_STRICT.
-/

namespace Twink.Agent
open Of13 Spec

/-- A flow entry, as described by the arguments of a FLOW_MOD message. -/
structure Entry where
  table : Nat
  priority : Nat
  idle : Nat
  hard : Nat
  flags : Nat
  cookie : Nat
  mt : MatchT
  instrs : Seq Instr

/-- The entries are in the same table and have the same match and priority. -/
def Entry.same (a b : Entry) : Prop :=
  a.table = b.table ∧ a.priority = b.priority ∧ a.mt.type.getD 1 = b.mt.type.getD 1 ∧ a.mt.fields = b.mt.fields

instance (a b : Entry) : Decidable (a.same b) := by unfold Entry.same; infer_instance

/-- A command of a FLOW_MOD message. -/
inductive FlowCmd where
  | add (e : Entry)
  | deleteStrict (e : Entry)

/-- The number of the command (`OFPFC_*`). -/
def FlowCmd.code : FlowCmd → Nat
  | .add _ => 0
  | .deleteStrict _ => 4

/-- The entry in the command. -/
def FlowCmd.entry : FlowCmd → Entry
  | .add e => e
  | .deleteStrict e => e

/-- What a switch does to its flow entries. -/
def FlowCmd.apply (t : List Entry) : FlowCmd → List Entry
  | .add e => t.filter (fun x => ¬ x.same e) ++ [e]
  | .deleteStrict e => t.filter (fun x => ¬ x.same e)

/-- The flow entries after a list of commands. -/
def flowsAfter (cs : List FlowCmd) : List Entry := cs.foldl FlowCmd.apply []

/-- `m` is a FLOW_MOD message made by the library for the command. -/
def Modifies (m : Bytes) (c : FlowCmd) : Prop :=
  c.entry.instrs.All Instr.Parseable ∧ ∃ rnd h cm b op og, buildFlowMod rnd h c.entry.cookie cm c.entry.table c.code c.entry.idle c.entry.hard
    c.entry.priority b op og c.entry.flags (.tup c.entry.mt) c.entry.instrs = .ok m

/-- The FLOW_MOD messages in a history. -/
def flowMods (hs : List Happening) : List Bytes :=
  hs.filterMap fun | (_, _, .msg m) => if u8 m 1 = 14 then some m else none | _ => none

/-- How an entry is listed in a reply: by its fields; duration 1 s and 2 ns, no packets. -/
def Entry.listed (e : Entry) : Rec :=
  (Rec.flowStats none e.table 1 2 e.priority e.idle e.hard e.flags e.cookie 0 0 (.tup e.mt) e.instrs).wire

/-- `r` is a flow statistics reply with the records, in some order. -/
def Lists (r : Bytes) (xid : Nat) (l : List Rec) : Prop :=
  ∃ recs : List Rec, List.Perm recs l ∧ parse r 0 = .ok (.mpReply ⟨4, 19, r.length, xid⟩ 1 0 (.many (recs.map .tup)))

end Twink.Agent

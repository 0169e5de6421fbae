import Verif.Py

/-!
# Temporary read wrappers

Models `/repo/twink/base.py`: `ReadWrapper` (48-66), used as a context manager (`with ReadWrapper(channel, read_wrap): …`), and which
function `Channel._recv` (121-126) applies to the reader of the socket. That a closed channel reads nothing is in `Verif.Model.Chan`.
-/

namespace Twink.Wrap
open Twink

/-- What `read_wrap` refers to: a function (numbered), such as `default_wrapper`, or a `ReadWrapper` object (its identity, and its attribute
`read_wrap`, which is set by the constructor only; base.py:49-51). -/
inductive W where
  | fn (n : Nat)
  | obj (id : Nat) (w : W)
  deriving DecidableEq, Repr

/-- The function that is called with the reader in the end: `__call__` of an object calls `self.read_wrap` (base.py:61-66). -/
def eff : W → Nat
  | .fn n => n
  | .obj _ w => eff w

/-- `channel.read_wrap`, and the attribute `installed_wrapper` of the objects (`none`: not set). -/
structure St where
  cur : W
  inst : Nat → Option W

/-- `__enter__` (base.py:53-56) of the object `id` made with `w`. -/
def enter (s : St) (id : Nat) (w : W) : St :=
  ⟨.obj id w, fun j => if j = id then some s.cur else s.inst j⟩

/-- `__exit__` (base.py:58-59); `with` calls it only after `__enter__`. -/
def leave (s : St) (id : Nat) : St :=
  match s.inst id with
  | some w => { s with cur := w }
  | none => s

/-- What a thread does with a channel: reads, blocks `with object: …`, also nested; it may raise an exception anywhere. -/
inductive Prog where
  | done
  | read (k : Prog)
  | raise
  | block (id : Nat) (w : W) (body k : Prog)
  deriving DecidableEq, Repr

/-- Running it: the state, the functions through which each read went (base.py:126: `ReadWrapper(self, self.read_wrap)(reader)(num)`), and
whether an exception left it. -/
def exec : Prog → St → St × List Nat × Bool
  | .done, s => (s, [], false)
  | .raise, s => (s, [], true)
  | .read k, s =>
    let r := exec k s
    (r.1, eff s.cur :: r.2.1, r.2.2)
  | .block id w body k, s =>
    let b := exec body (enter s id w)
    let s := leave b.1 id
    if b.2.2 then (s, b.2.1, true)
    else
      let r := exec k s
      (r.1, b.2.1 ++ r.2.1, r.2.2)

/-- What several threads do, interleaved. -/
inductive Ev where
  | enter (id : Nat) (w : W)
  | leave (id : Nat)
  | read
  deriving DecidableEq, Repr

def step (s : St) : Ev → St
  | .enter id w => enter s id w
  | .leave id => leave s id
  | .read => s

def run (s : St) : List Ev → St
  | [] => s
  | e :: es => run (step s e) es

end Twink.Wrap

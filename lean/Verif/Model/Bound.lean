import Verif.Py

/-!
# The socket of a server

Models `/repo/twink/base.py:581-606` (`bound_socket`, `stream_socket`, `dgram_socket`).

The operating system is a record of what its calls answer; `α` stands for the arguments of `getaddrinfo`, `β` for socket addresses.
What happens to a socket that could not be bound is not modelled: nothing closes it but the end of the last reference.
-/

namespace Twink.Bound

/-- An entry of the list `getaddrinfo` returns (`proto` and `canonname` are not used). -/
structure Entry (β : Type) where
  family : Nat
  socktype : Nat
  sockaddr : β
  deriving DecidableEq, Repr

/-- A socket: family, type, whether SO_REUSEADDR has been set, the address it has been bound to. -/
structure Sock (β : Type) where
  family : Nat
  socktype : Nat
  reuse : Bool
  bound : Option β
  deriving DecidableEq, Repr

/-- The argument `info` by its type. -/
inductive Info (α β : Type) where
  | sock (s : Sock β)      -- a `socket.socket`
  | args (a : α)           -- a tuple or a list
  | path (p : β)           -- a `str`
  | other                  -- anything else
  deriving DecidableEq, Repr

/-- The operating system: the names found; which exceptions `socket`, `setsockopt` and `bind` raise. -/
structure Os (α β : Type) where
  lookup : α → Py (List (Entry β))
  socket : Nat → Nat → Option Err
  setsockopt : Sock β → Option Err
  bind : Sock β → β → Option Err

variable {α β : Type}

/-- `SOCK_STREAM`, `SOCK_DGRAM` and `AF_UNIX` of Linux. -/
def sockStream : Nat := 1
def sockDgram : Nat := 2
def afUnix : Nat := 1

/-- `s = socket.socket(family, socktype)`, `s.setsockopt(…, SO_REUSEADDR, 1)`, `s.bind(addr)`, `return s`. base.py:588-591, 593-596 -/
def make (os : Os α β) (family socktype : Nat) (addr : β) : Py (Sock β) :=
  match os.socket family socktype with
  | some e => .error e
  | none =>
    match os.setsockopt ⟨family, socktype, false, none⟩ with
    | some e => .error e
    | none =>
      match os.bind ⟨family, socktype, true, none⟩ addr with
      | some e => .error e
      | none => .ok ⟨family, socktype, true, some addr⟩

/-- `bound_socket(info, socktype)`. base.py:581-598 -/
def boundSocket (os : Os α β) (info : Info α β) (socktype : Nat) : Py (Sock β) :=
  match info with
  | .sock s => .ok s
  | .args a =>
    match os.lookup a with
    | .error e => .error e
    | .ok l =>
      match l.filter (fun o => o.socktype = socktype || o.socktype = 0) with
      | [] => .error .indexError
      | o :: _ => make os o.family o.socktype o.sockaddr
  | .path p => make os afUnix socktype p
  | .other => .error .valueError

/-- `stream_socket(info)`. base.py:601-602 -/
def streamSocket (os : Os α β) (info : Info α β) : Py (Sock β) := boundSocket os info sockStream

/-- `dgram_socket(info)`. base.py:605-606 -/
def dgramSocket (os : Os α β) (info : Info α β) : Py (Sock β) := boundSocket os info sockDgram

end Twink.Bound

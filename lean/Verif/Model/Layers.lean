import Verif.Model.Mro
import Verif.Model.Server
import Verif.Model.Controller
import Verif.Model.Parallel

/-!
# Handlers of combined channel classes

Three mixins override `handle_proxy`: `AutoEchoChannel` (/repo/twink/base.py:338-346), `ControllerChannel` (434-471) and `ParallelChannel` (537-559);
`OpenflowServerChannel.handle_proxy` (327-328) returns its argument.  In a class that combines them `loop` (323) calls `self.handle_proxy(self.handle)(message, self)`, and each
calls the next one by `super`.  What happens to a message thus depends on the order of the classes (`Model.Mro`).

`handle_proxy` has no effect but to make a function.  A handler that has been wrapped by `ParallelChannel` is called in a thread of its own or by the rate limiter, within
`try`.  `self.callback` of `ControllerChannel` always is `None` (see `Model.Controller`).
-/

namespace Twink.Layers
open Twink Mro

/-- The function that is called in the end: `self.handle` or `self.handle_async`. -/
inductive Target where
  | handle
  | async
  deriving DecidableEq, Repr

/-- What becomes of a message. -/
inductive Fate where
  | echoed (reply : Bytes)                         -- `self.send(reply)` (base.py:344)
  | called (t : Target) (spawned : Bool)           -- the handler is called: in a thread of its own, or in the receiving thread
  | replied (h : Handled)                          -- dealt with by `ControllerChannel` (callback, barrier, AssertionError)
  | ignored                                        -- nothing (an empty message, 340)
  | raised (e : Err)                               -- an exception in the receiving thread
  deriving DecidableEq, Repr

/-- What the classes read: the negotiated version, whether `handle_async` exists, `async_rate`, which callbacks are alive. -/
structure Cfg where
  version : Option Nat
  hasAsync : Bool
  rate : Nat
  alive : Nat → Bool

/-- `intercept` of `ParallelChannel` (base.py:538-558) around a handler, or the handler itself. -/
def finish (cfg : Cfg) (t : Target) (spawned : Bool) (m : Bytes) : Fate :=
  if spawned then
    match Par.ratedCall cfg.rate m with
    | .error e => .raised e
    | .ok _ => .called t true
  else .called t false

/-- `super(C, self).handle_proxy(h)(message, self)` where `l` is what follows `C` in the order of the classes; `h` is the target, wrapped or not. -/
def proxy (cfg : Cfg) : List Cls → Ctl → Target → Bool → Bytes → Ctl × Fate
  | [], st, _, _, _ => (st, .raised .attributeError)
  | .server :: _, st, t, sp, m => (st, finish cfg t sp m)                        -- L327-328
  | .autoEcho :: r, st, t, sp, m =>                                              -- L338-346
    if m = [] then (st, .ignored)
    else
      match parseHeader m with
      | .error e => (st, .raised e)
      | .ok (_, oftype, length, xid) =>
        if oftype = 2 then
          match cfg.version with
          | none => (st, .raised .structError)
          | some v =>
            match pack hdrFmt [.int v, .int 3, .int length, .int xid] with
            | .error e => (st, .raised e)
            | .ok hdr => (st, .echoed (hdr ++ m.drop 8))
        else proxy cfg r st t sp m
  | .controller :: r, st, t, sp, m =>                                            -- L434-471
    match ctlHandle cfg.hasAsync cfg.alive st m with
    | (st, .async) => proxy cfg r st .async false m                              -- L440: `super().handle_proxy(self.handle_async)`
    | (st, .default) => proxy cfg r st t sp m                                    -- L468
    | (st, .badHeader) => (st, .raised .structError)
    | (st, h) => (st, .replied h)
  | .parallel :: r, st, t, _, m => proxy cfg r st t true m                       -- L559
  | _ :: r, st, t, sp, m => proxy cfg r st t sp m

/-- `self.handle_proxy(self.handle)(message, self)` (base.py:323) on an object whose class has the order `mro`. -/
def dispatch (cfg : Cfg) (mro : List Cls) (st : Ctl) (m : Bytes) : Ctl × Fate := proxy cfg mro st .handle false m

/-- The classes that define `handle`: base.py L330, 802, 819 (`rule2ofp` and others give it in the body of a user's class). -/
def hasHandle (user : Nat → Bool) : Cls → Bool
  | .server => true
  | .child => true
  | .jackinChild => true
  | .user n => user n
  | _ => false

/-- `self.handle`: the class whose function is found. -/
def handleOf (user : Nat → Bool) (mro : List Cls) : Option Cls := mro.find? (hasHandle user)

end Twink.Layers

import Verif.Py

/-!
# `ofptuple`, twink/ofp5/__init__.py L643-692, and the identical twink/ofp4/__init__.py L495-544
-/

namespace Twink.OfpTuple
open Fmt

/-- The named tuple `ofptuple`; `None` is `none`. twink/ofp5/__init__.py L679 -/
structure Key where
  inPort : Option Nat
  dlSrc : Bytes
  dlDst : Bytes
  dlType : Nat
  dlVlan : Option Nat
  dlVlanPcp : Option Nat
  nwSrc : Option Bytes
  nwDst : Option Bytes
  nwProto : Option Nat
  ipTos : Option Nat
  tpSrc : Option Nat
  tpDst : Option Nat
  deriving DecidableEq, Repr

/-- `"0x00"*3`. twink/ofp5/__init__.py L660 -/
def oui : Bytes := [0x30, 0x78, 0x30, 0x30, 0x30, 0x78, 0x30, 0x30, 0x30, 0x78, 0x30, 0x30]

/-- Type and offset after the block for 802.3 frames. twink/ofp5/__init__.py L658-662 -/
def llc (m : Bytes) (ty off : Nat) : Py (Nat × Nat) :=
  if ty < 0x05DC then
    match unpackFrom [B, B, B, S 3, H] m 14 with
    | .ok [.int dsap, .int ssap, .int _, .str o, .int snap] =>
      if dsap = 0xAA ∧ ssap = 0xAA ∧ o = oui then .ok (snap, 8) else .ok (ty, off)
    | .ok _ => .error .valueError
    | .error e => .error e
  else .ok (ty, off)

/-- Ports, or type and code. twink/ofp5/__init__.py L669-674 -/
def ports (proto src dst : Nat) : Option Nat × Option Nat :=
  if proto = 1 then (some (src >>> 8), some (src &&& 0xFF))
  else if proto = 6 ∨ proto = 17 then (some src, some dst)
  else (none, none)

/-- The network part of the tuple. twink/ofp5/__init__.py L664-677 -/
def net (m : Bytes) (ty off : Nat) (k : Key) : Py Key :=
  if ty = 0x0800 then
    match unpackFrom [X 1, B, X 7, B, X 2, S 4, S 4, H, H] m (14 + off) with
    | .ok [.int tos, .int proto, .str src, .str dst, .int sp, .int dp] =>
      .ok { k with ipTos := some tos, nwProto := some proto, nwSrc := some src, nwDst := some dst,
                   tpSrc := (ports proto sp dp).1, tpDst := (ports proto sp dp).2 }
    | .ok _ => .error .valueError
    | .error e => .error e
  else if ty = 0x0806 then
    match unpackFrom [X 6, H, X 6, S 4, X 6, S 4] m (14 + off) with
    | .ok [.int op, .str src, .str dst] => .ok { k with nwProto := some op, nwSrc := some src, nwDst := some dst }
    | .ok _ => .error .valueError
    | .error e => .error e
  else .ok k

/-- From L658 on, with the type, VLAN and offset found. twink/ofp5/__init__.py L658-692 -/
def rest (m : Bytes) (inPort : Option Nat) (dst src : Bytes) (ty : Nat) (vlan pcp : Option Nat) (off : Nat) : Py Key := do
  let (ty, off) ← llc m ty off
  net m ty off ⟨inPort, src, dst, ty, vlan, pcp, none, none, none, none, none, none⟩

/-- `ofptuple(etherframe, in_port)`. twink/ofp5/__init__.py L643-692 -/
def ofptuple (m : Bytes) (inPort : Option Nat) : Py Key :=
  match unpackFrom [S 6, S 6, H, H, H] m 0 with
  | .ok [.str dst, .str src, .int ty, .int tci, .int inner] =>
    if ty = 0x8100 then rest m inPort dst src inner (some (tci &&& 0x0FFF)) (some (tci >>> 13)) 4
    else rest m inPort dst src ty none none 0
  | .ok _ => .error .valueError
  | .error e => .error e

end Twink.OfpTuple

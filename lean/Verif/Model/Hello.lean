import Verif.Model.Framing

/-!
# Hello messages and version negotiation

Models `/repo/twink/base.py`: `ofp_version_normalize` (264-275), `hello` (278-296), `parse_hello` (299-313),
`OpenflowChannel.recv` (220-237), `ofp_header_only` (247-250).

A Python `set` of ints is modelled by a list of its members; only membership and `max` are used, which do not depend on the
order, except for the text of the error message, where the list order stands for Python's iteration order.
-/

namespace Twink
open Fmt

/-- An element of `accept_versions`: an int, a float (`float (some k)` is `1.k` for `k ≤ 4`, `float none` any other float),
or something else. Negative ints are not modelled. -/
inductive PyVer where
  | int (n : Nat)
  | float (k : Option (Fin 5))
  | other
  deriving DecidableEq, Repr

/-- The argument `versions`: `None`, a list/tuple/set, or something else (that is not false: for `0` or `""`, `hello` would announce 1.0). -/
inductive PyVers where
  | none
  | seq (l : List PyVer)
  | other
  deriving DecidableEq, Repr

/-- `set.add` on the list of members. -/
def setAdd (s : List Nat) (v : Nat) : List Nat := if v ∈ s then s else s ++ [v]

/-- One round of the loop in `ofp_version_normalize` (base.py:267-271). -/
def normOne : PyVer → Py Nat
  | .int n => .ok n
  | .float (some k) => .ok (k.val + 1)      -- [1.0, 1.1, 1.2, 1.3, 1.4].index(version) + 1
  | .float Option.none => .error .valueError
  | .other => .error .assertion

/-- The loop of `ofp_version_normalize` (base.py:266-272). -/
def normLoop : List PyVer → List Nat → Py (List Nat)
  | [], vset => .ok vset
  | v :: vs, vset => do
    let n ← normOne v
    normLoop vs (setAdd vset n)

/-- `ofp_version_normalize(versions)` (base.py:264-275). -/
def normalize : PyVers → Py (List Nat)
  | .seq l => normLoop l []
  | .none => .ok []
  | .other => .error .assertion

/-- Python's `max` of a non-empty set of natural numbers. -/
def maxL (l : List Nat) : Nat := l.foldr max 0

/-- `ofp_header_only(oftype, version, xid)` (base.py:247-250). -/
def headerOnly (oftype version xid : Nat) : Py Bytes :=
  pack hdrFmt [.int version, .int oftype, .int 8, .int xid]

/-- The bitmap words (base.py:289-291). -/
def bitmapUnits (vset : List Nat) : List Nat :=
  vset.foldl (fun us v => us.modify (v / 32) (fun u => u ||| (1 <<< (v % 32)))) (List.replicate (1 + maxL vset / 32) 0)

/-- The format `"!BBHIHH%dI%dx"` for `k` bitmap words (base.py:294). -/
def helloFmt (k : Nat) : Fmt := [B, B, H, I, H, H] ++ List.replicate k I ++ [X (8 * ((k - 1) % 2))]

/-- The set that `hello` announces (base.py:280-283): `{1}` if `versions` is falsy. -/
def helloSet : PyVers → Py (List Nat)
  | .none => .ok [1]
  | .seq [] => .ok [1]
  | v => normalize v

/-- `hello(versions, xid=xid)` (base.py:278-296). -/
def hello (versions : PyVers) (xid : Nat) : Py Bytes := do
  let vset ← helloSet versions
  let version := maxL vset
  if version < 4 then
    pack hdrFmt [.int version, .int 0, .int 8, .int xid]
  else
    let units := bitmapUnits vset
    let fmt := helloFmt units.length
    pack fmt ([.int version, .int 0, .int (calcsize fmt), .int xid, .int 1, .int (4 + units.length * 4)] ++ units.map .int)

/-- The bits of one bitmap word (base.py:310-312). -/
def unitVersions (idx unit : Nat) : List Nat :=
  ((List.range 32).filter (fun s => unit &&& (1 <<< s) ≠ 0)).map (fun s => idx * 32 + s)

/-- The nested loops over the bitmap (base.py:309-312). -/
def bitmapVersions (idx : Nat) : List Nat → List Nat
  | [] => []
  | u :: us => unitVersions idx u ++ bitmapVersions (idx + 1) us

/-- The integers among unpacked values (all of them, for a format of `I`s only). -/
def ints : List Val → List Nat
  | [] => []
  | .int n :: vs => n :: ints vs
  | .str _ :: vs => ints vs

/-- `parse_hello(message)` (base.py:299-313): the list of members of the returned set.
`sublength / 4 - 1` is negative for `sublength < 4`; then the format `"!-1I"` makes `struct` raise. -/
def parseHello (m : Bytes) : Py (List Nat) := do
  let (version, oftype, length, _) ← parseHeader m
  if oftype ≠ 0 then .error .assertion
  else if length = 8 then .ok [version]
  else
    match ← unpackFrom [H, H] m 8 with
    | [.int subtype, .int sublength] =>
      if subtype ≠ 1 then .error .assertion
      else if sublength / 4 = 0 then .error .structError
      else do
        let vals ← unpackFrom (List.replicate (sublength / 4 - 1) I) m 12
        .ok (bitmapVersions 0 (ints vals))
    | _ => .error .structError

/-- The texts `"- 1.0 1.1 1.2 1.3 1.4".split()` (base.py:232) as ASCII bytes: `-`, `1.0`, …, `1.4`. -/
def versionText : Nat → Py Bytes
  | 0 => .ok [45]
  | 1 => .ok [49, 46, 48]
  | 2 => .ok [49, 46, 49]
  | 3 => .ok [49, 46, 50]
  | 4 => .ok [49, 46, 51]
  | 5 => .ok [49, 46, 52]
  | _ => .error .indexError

/-- The list `[...split()[x] for x in list(accept_versions)]` (base.py:232). -/
def versionTexts : List Nat → Py (List Bytes)
  | [] => .ok []
  | v :: vs => do
    let t ← versionText v
    let ts ← versionTexts vs
    .ok (t :: ts)

/-- The items of `repr` of a list of simple strings: `'a', 'b'`. -/
def reprItems : List Bytes → Bytes
  | [] => []
  | [t] => [39] ++ t ++ [39]
  | t :: ts => [39] ++ t ++ [39] ++ [44, 32] ++ reprItems ts

/-- `repr` of a list of simple strings: `['a', 'b']`. -/
def reprStrings (ts : List Bytes) : Bytes := [91] ++ reprItems ts ++ [93]

/-- `"Accept versions: "` -/
def acceptPrefix : Bytes := [65, 99, 99, 101, 112, 116, 32, 118, 101, 114, 115, 105, 111, 110, 115, 58, 32]

/-- The negotiated version and everything written to the transport. -/
structure HsState where
  version : Option Nat
  sent : List Bytes
  deriving DecidableEq, Repr

open Fmt in
/-- The format of the error message (base.py:233). -/
def errFmt : Fmt := [B, B, H, I, H, H]

/-- The HELLO branch of `OpenflowChannel.recv` (base.py:224-236); `xid` is what `hms_xid()` returns. -/
def negotiate (accept : PyVers) (xid : Nat) (st : HsState) (m : Bytes) : HsState × Py Bytes :=
  match normalize accept with
  | .error e => (st, .error e)
  | .ok acc0 =>
    let acc := if acc0 = [] then [1] else acc0
    match parseHello m with
    | .error e => (st, .error e)
    | .ok theirs =>
      let cross := theirs.filter (· ∈ acc)
      if cross ≠ [] then ({ st with version := some (maxL cross) }, .ok m)
      else
        match versionTexts acc with
        | .error e => (st, .error e)
        | .ok ts =>
          let txt := acceptPrefix ++ reprStrings ts
          match pack errFmt [.int (maxL acc), .int 1, .int (calcsize errFmt + txt.length), .int xid, .int 0, .int 0] with
          | .error e => (st, .error e)
          | .ok hdr => ({ st with sent := st.sent ++ [hdr ++ txt] }, .error .channelClose)

/-- `OpenflowChannel.recv` (base.py:220-237) after the framing layer returned `m`. -/
def ofRecv (accept : PyVers) (xid : Nat) (st : HsState) (m : Bytes) : HsState × Py Bytes :=
  if m = [] then (st, .ok m)
  else
    match parseHeader m with
    | .error e => (st, .error e)
    | .ok (_, oftype, _, _) =>
      if oftype = 0 then negotiate accept xid st m else (st, .ok m)

end Twink

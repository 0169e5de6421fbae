import Verif.Py

/-!
# Enumerations, twink/ofp4/__init__.py L4-77 and the identical twink/ofp5/__init__.py L4-77

Text is a list of characters, `txt! "..."`.  A Python dictionary is the list of its entries in the order in which
it is iterated, which the language leaves open: theorems quantify over that order.  `numbers` and `bitshifts` of other types
than `None`, `str` and `dict`, for which `items` raises ValueError, do not occur in the package and are left out.
-/

namespace Twink.Enum

/-- `txt! "abc"` is `['a', 'b', 'c']`. -/
macro "txt!" s:str : term => do
  let cs := (s.getString.toList.map Lean.Syntax.mkCharLit).toArray
  `(term| [$cs,*])

/-- A name of a constant. -/
abbrev Name := List Char

/-- What `str.split()` takes for white space. -/
def isSpace (c : Char) : Bool := c == ' ' || c == '\t' || c == '\n' || c == '\r' || c.toNat == 11 || c.toNat == 12

/-- `s.split()`; `w` is the word being read, backwards. -/
def splitAux : List Char → List Char → List Name
  | [], w => if w.isEmpty then [] else [w.reverse]
  | c :: s, w =>
    if isSpace c then (if w.isEmpty then splitAux s [] else w.reverse :: splitAux s []) else splitAux s (c :: w)

/-- `s.split()`. -/
def split (s : List Char) : List Name := splitAux s []

/-- The class attributes `numbers` and `bitshifts`. -/
inductive Src (α : Type) where
  | none
  | str (s : List Char)
  | dict (l : List (List Char × α))

/-- A subclass of `_enum_base`, with its attributes `prefix`, `numbers` and `bitshifts`. -/
structure Enum where
  pre : List Char
  numbers : Src Nat
  bitshifts : Src Int

/-- The loop `for ki in k.split(): ret.append((ki, v)); v += 1`. twink/ofp5/__init__.py L15-17 -/
def numbered : List Name → Nat → List (Name × Nat)
  | [], _ => []
  | k :: ks, v => (k, v) :: numbered ks (v + 1)

/-- The first part of `items`. twink/ofp5/__init__.py L9-19 -/
def itemsNumbers : Src Nat → List (Name × Nat)
  | .none => []
  | .str s => (split s).zip (List.range (split s).length)
  | .dict l => l.flatMap fun e => numbered (split e.1) e.2

/-- `0` for a negative `v`, else `1<<v`. twink/ofp5/__init__.py L32-35, L39-42 -/
def bit (v : Int) : Nat := if v < 0 then 0 else 1 <<< v.toNat

/-- The loop over the names of one entry. twink/ofp5/__init__.py L38-43 -/
def shifted : List Name → Int → List (Name × Nat)
  | [], _ => []
  | k :: ks, v => (k, bit v) :: shifted ks (v + 1)

/-- `items_bitshifts`. twink/ofp5/__init__.py L25-47 -/
def itemsBitshifts : Src Int → List (Name × Nat)
  | .none => []
  | .str s => ((split s).zip (List.range (split s).length)).map fun e => (e.1, bit e.2)
  | .dict l => l.flatMap fun e => shifted (split e.1) e.2

/-- `items`. twink/ofp5/__init__.py L7-23 -/
def items (e : Enum) : List (Name × Nat) := itemsNumbers e.numbers ++ itemsBitshifts e.bitshifts

/-- `self.prefix+"_"+k`. -/
def full (e : Enum) (k : Name) : Name := e.pre ++ '_' :: k

/-- A dictionary of constants, the `globals()` of a module. -/
abbrev Scope := Name → Option Nat

/-- `__init__`. twink/ofp5/__init__.py L49-51 -/
def init (scope : Scope) (e : Enum) : Scope :=
  (items e).foldl (fun s kv => fun n => if n = full e kv.1 then some kv.2 else s n) scope

/-- `name`. twink/ofp5/__init__.py L53-56 -/
def name (e : Enum) (value : Nat) : Option Name :=
  ((items e).find? fun kv => kv.2 == value).map fun kv => full e kv.1

/-- `k.endswith("_MASK")`. twink/ofp5/__init__.py L62 -/
def endsMask (k : Name) : Bool := (txt! "_MASK").isSuffixOf k

/-- The loop of `bitnames`: `nohit` and `ret`. twink/ofp5/__init__.py L59-67 -/
def bitLoop (e : Enum) (value : Nat) : List (Name × Nat) → Option Name → List Name → Option Name × List Name
  | [], nohit, ret => (nohit, ret)
  | (k, v) :: l, nohit, ret =>
    if endsMask k then bitLoop e value l nohit ret
    else if value &&& v ≠ 0 then bitLoop e value l nohit (ret ++ [full e k])
    else if v = 0 then bitLoop e value l (some (full e k)) ret
    else bitLoop e value l nohit ret

/-- `bitnames`. twink/ofp5/__init__.py L58-70 -/
def bitnames (e : Enum) (value : Nat) : List Name :=
  match bitLoop e value (itemsBitshifts e.bitshifts) none [] with
  | (some n, []) => [n]
  | (_, ret) => ret

/-- `values`. twink/ofp5/__init__.py L72-73 -/
def values (e : Enum) : List Nat := (items e).map (·.2)

/-- `keys`. twink/ofp5/__init__.py L75-76 -/
def keys (e : Enum) : List Name := (items e).map (·.1)

/-- The definitions of a module, one enumeration after the other, each `type(...)(globals())`. -/
def defineAll (scope : Scope) (es : List Enum) : Scope := es.foldl init scope

end Twink.Enum
